import Verif.Props.Formats
import Verif.Spec.Types
import Verif.Proofs.ConditionLaws
/-!
# Timestamps, descriptors and message ids

C12, C13, C49.
-/
namespace Amqp
open Dec

/-! ## C12 -/

/-- The instant denoted by a `DateTime`, in nanoseconds since the Unix epoch. -/
def DateTime.instant (t : DateTime) : Int := t.secs * 1000000000 + t.nanos

theorem datetimeFromMillis_eq (m : Int) : datetimeFromMillis m =
    if 0 ≤ m then utcTimestamp (m / 1000) (m % 1000 * 1000000).natAbs
    else if m ≤ -1000 then
      utcTimestamp (-((-m) / 1000) - 1) ((1000 - (-m) % 1000) * 1000000).natAbs
    else utcTimestamp 0 (-m * 1000000).natAbs := by
  have hd : Int.tdiv m 1000 = if 0 ≤ m then m / 1000 else -((-m) / 1000) := by
    by_cases h0 : 0 ≤ m
    · rw [if_pos h0, Int.tdiv_eq_ediv_of_nonneg h0]
    · rw [if_neg h0]
      have : m = -(-m) := by omega
      rw [this, Int.neg_tdiv, Int.tdiv_eq_ediv_of_nonneg (by omega)]
      simp
  unfold datetimeFromMillis
  simp only [hd]
  by_cases h0 : 0 ≤ m
  · rw [if_pos h0, if_neg (by omega), if_pos h0]
    congr 2; omega
  · rw [if_neg h0, if_neg h0]
    by_cases h1 : m ≤ -1000
    · rw [if_pos (by omega), if_pos h1]
      congr 2; omega
    · rw [if_neg (by omega), if_neg h1]
      have e1 : -(-m / 1000) = 0 := by omega
      rw [e1, show (m - 0 * 1000) * 1000000 = -(-m * 1000000) by omega, Int.natAbs_neg]

theorem decode_timestamp (env : Env) (m : Int64) (rest : Bytes) :
    decode DateTime env (timestampWire m ++ rest) = datetimeFromMillis m.toInt rest := by
  rw [timestampWire, List.cons_append, decode_cons]
  show (validateCode FC.timestamp FC.timestamp _ : Dec DateTime) _ = _
  rw [validateCode, if_neg (fun h => h rfl), run_bind,
    Reads.readBE (k := 8) (n := m.toUInt64.toNat) (UInt64.toNat_lt _) rest]
  simp

theorem utcTimestamp_ok {s : Int} {n : Nat} (h : dtOk s n = true) (i : Bytes) :
    utcTimestamp s n i = .ok (i, ⟨s, n, h⟩) := by
  rw [utcTimestamp, dif_pos h]; rfl

theorem dtOk_of {s : Int} {n : Nat} (h1 : minSecs ≤ s) (h2 : s ≤ maxSecs) (h3 : n < 2000000000) :
    dtOk s n = true := by
  simp [dtOk, h1, h2, h3]

theorem enc_timestamp {t : DateTime} {m : Int64} (h : t.millis = m.toInt) :
    enc t = timestampWire m := by
  show FC.timestamp :: beEnc 8 (Int64.ofInt t.millis).toUInt64.toNat = _
  rw [h, Int64.ofInt_toInt]; rfl

/-- **C12**, the part that holds: for every millisecond count within chrono's
range that is not in the last second before the epoch, decoding yields a
`DateTime` denoting exactly that instant, and encoding it again writes the same
count.  Missing: `-1000 < m < 0` and counts out of range, see the violations. -/
theorem C12_timestamp_instant_partial (env : Env) (m : Int64) (rest : Bytes)
    (hlo : -8334632851200000 < m.toInt) (hhi : m.toInt < 8210298412800000)
    (hm : m.toInt ≤ -1000 ∨ 0 ≤ m.toInt) :
    ∃ t : DateTime, decode DateTime env (timestampWire m ++ rest) = .ok (rest, t) ∧
      t.instant = m.toInt * 1000000 ∧ enc t = timestampWire m := by
  rw [decode_timestamp, datetimeFromMillis_eq]
  rcases hm with hm | hm
  · rw [if_neg (by omega), if_pos hm]
    have ok : dtOk (-((-m.toInt) / 1000) - 1) ((1000 - (-m.toInt) % 1000) * 1000000).natAbs = true :=
      dtOk_of (by unfold minSecs; omega) (by unfold maxSecs; omega) (by omega)
    refine ⟨_, utcTimestamp_ok ok rest, ?_, enc_timestamp ?_⟩
    · simp only [DateTime.instant]; omega
    · simp only [DateTime.millis]; omega
  · rw [if_pos hm]
    have ok : dtOk (m.toInt / 1000) (m.toInt % 1000 * 1000000).natAbs = true :=
      dtOk_of (by unfold minSecs; omega) (by unfold maxSecs; omega) (by omega)
    refine ⟨_, utcTimestamp_ok ok rest, ?_, enc_timestamp ?_⟩
    · simp only [DateTime.instant]; omega
    · simp only [DateTime.millis]; omega

example : ∃ t : DateTime,
    decode DateTime debugEnv (timestampWire 1311704463521 ++ [7]) = .ok ([7], t) ∧
      t.instant = 1311704463521000000 ∧ enc t = timestampWire 1311704463521 :=
  C12_timestamp_instant_partial debugEnv 1311704463521 [7] (by decide) (by decide) (by decide)

/-- **C12 violated** in the last second before the epoch: every such timestamp
is decoded as the mirrored instant after the epoch. -/
theorem C12_violated_before_epoch (env : Env) (m : Int64) (rest : Bytes)
    (hlo : -1000 < m.toInt) (hhi : m.toInt < 0) :
    ∃ t : DateTime, decode DateTime env (timestampWire m ++ rest) = .ok (rest, t) ∧
      t.instant = -(m.toInt * 1000000) ∧ t.instant ≠ m.toInt * 1000000 ∧
      enc t ≠ timestampWire m := by
  rw [decode_timestamp, datetimeFromMillis_eq, if_neg (by omega), if_neg (by omega)]
  have ok : dtOk 0 (-m.toInt * 1000000).natAbs = true :=
    dtOk_of (by unfold minSecs; omega) (by unfold maxSecs; omega) (by omega)
  refine ⟨_, utcTimestamp_ok ok rest, ?_, ?_, ?_⟩
  · simp only [DateTime.instant]; omega
  · simp only [DateTime.instant]; omega
  · generalize ht : DateTime.mk 0 (-m.toInt * 1000000).natAbs ok = t
    have hn : t.millis = -m.toInt := by
      rw [← ht]; simp only [DateTime.millis]; omega
    intro h
    have h2 : beEnc 8 (Int64.ofInt t.millis).toUInt64.toNat = beEnc 8 m.toUInt64.toNat :=
      (List.cons.inj h).2
    have h3 := congrArg beDec h2
    rw [beDec_beEnc, beDec_beEnc, Nat.mod_eq_of_lt (UInt64.toNat_lt _),
      Nat.mod_eq_of_lt (UInt64.toNat_lt _)] at h3
    have h4 : Int64.ofInt t.millis = m := by
      have := UInt64.toNat_inj.1 h3
      have := congrArg UInt64.toInt64 this
      simpa using this
    have h5 := congrArg Int64.toInt h4
    rw [toInt64_ofInt t.millis_bounds.1 t.millis_bounds.2] at h5
    omega

example : decode DateTime debugEnv (timestampWire (-250)) =
    .ok ([], ⟨0, 250000000, rfl⟩) := by decide

/-- **C12 violated** out of chrono's range: the decoder panics, in every build. -/
theorem C12_violated_out_of_range (env : Env) (m : Int64) (rest : Bytes)
    (h : m.toInt ≤ -8334632851200000 ∨ 8210298412800000 ≤ m.toInt) :
    decode DateTime env (timestampWire m ++ rest) = .panic .timestampRange := by
  rw [decode_timestamp, datetimeFromMillis_eq]
  have key : ∀ (s : Int) (n : Nat), ¬ (minSecs ≤ s ∧ s ≤ maxSecs) →
      utcTimestamp s n rest = .panic .timestampRange := by
    intro s n hs
    rw [utcTimestamp, dif_neg]
    · rfl
    · simp only [dtOk, Bool.and_eq_true, decide_eq_true_eq]
      exact fun hh => hs hh.1
  rcases h with h | h
  · rw [if_neg (by omega), if_pos (by omega)]
    exact key _ _ (by unfold minSecs maxSecs; omega)
  · rw [if_pos (by omega)]
    exact key _ _ (by unfold minSecs maxSecs; omega)

example : decode DateTime releaseEnv [0x83, 0x7f, 0xff, 0xff, 0xff, 0xff, 0xff, 0xff, 0xff] =
    .panic .timestampRange := by decide

/-- Encoding a `DateTime` writes the whole milliseconds of its instant, rounded
towards minus infinity. -/
theorem C12_encode_floor (t : DateTime) :
    ∃ m : Int64, enc t = timestampWire m ∧
      m.toInt * 1000000 ≤ t.instant ∧ t.instant < (m.toInt + 1) * 1000000 := by
  refine ⟨Int64.ofInt t.millis, rfl, ?_⟩
  rw [toInt64_ofInt t.millis_bounds.1 t.millis_bounds.2]
  simp only [DateTime.millis, DateTime.instant]
  omega

/-- Exactly which `DateTime` values survive a round trip: whole milliseconds,
and from the epoch on an ordinary nanosecond field; before the epoch at least a
second before it, and whole seconds only in leap-second form. -/
theorem C12_round_trip_iff (env : Env) (t : DateTime) :
    RoundTrips env t ↔ t.nanos % 1000000 = 0 ∧
      ((0 ≤ t.secs ∧ t.nanos < 1000000000) ∨
       (t.secs ≤ -2 ∧ 0 < t.nanos ∧ t.nanos ≤ 1000000000)) := by
  constructor
  · intro h
    have h0 := h []
    have e : enc t = timestampWire (Int64.ofInt t.millis) := rfl
    rw [e, decode_timestamp, toInt64_ofInt t.millis_bounds.1 t.millis_bounds.2,
      datetimeFromMillis_eq] at h0
    have key : ∀ (s : Int) (n : Nat), utcTimestamp s n [] = .ok ([], t) → t.secs = s ∧ t.nanos = n := by
      intro s n hs
      rw [utcTimestamp] at hs
      split at hs
      · injection hs with hs; injection hs with _ hs; subst hs; exact ⟨rfl, rfl⟩
      · cases hs
    have hb := t.bounds
    have hm : t.millis = t.secs * 1000 + ((t.nanos / 1000000 : Nat) : Int) := rfl
    split at h0
    · have := key _ _ h0; omega
    · split at h0
      · have := key _ _ h0; omega
      · have := key _ _ h0; omega
  · intro h
    exact LawfulCodec.rt env t h

/-- 2011-07-26T18:21:03.521Z, and one second and a half before the epoch. -/
example : RoundTrips debugEnv (⟨1311704463, 521000000, rfl⟩ : DateTime) :=
  (C12_round_trip_iff _ _).2 (by decide)
example : RoundTrips debugEnv (⟨-2, 500000000, rfl⟩ : DateTime) :=
  (C12_round_trip_iff _ _).2 (by decide)
/-- 1969-12-31T23:59:55Z does not survive. -/
example : ¬ RoundTrips debugEnv (⟨-5, 0, rfl⟩ : DateTime) :=
  fun h => absurd ((C12_round_trip_iff _ _).1 h) (by decide)

/-! ## C13 -/

/-- **C13**, the part that holds: every descriptor other than `Ulong(0)` (with a
symbol shorter than 2^32 bytes) is written as the described-type marker followed
by bytes that decode to it.  Missing: `Ulong(0)`. -/
theorem C13_descriptor_round_trip_partial (env : Env) (d : Descriptor) (h0 : d ≠ .ulong 0)
    (hs : ∀ s, d = .symbol s → s.str.bytes.length < 2 ^ 32) :
    ∃ w, enc d = 0x00 :: w ∧ ∀ rest, decode Descriptor env (w ++ rest) = .ok (rest, d) := by
  refine ⟨d.body, Descriptor.enc_eq d, reads_descriptor env d ?_⟩
  cases d with
  | ulong v => exact fun h => h0 (by rw [h])
  | symbol s => exact hs s rfl

example : decode Descriptor debugEnv [0x80, 0, 0, 0x46, 0x8C, 0, 0, 0, 4, 9] =
    .ok ([9], .ulong 0x0000468C00000004) := by decide
example : ∃ w, enc (Descriptor.ulong 0x0000468C00000004) = 0x00 :: w ∧
    ∀ rest, decode Descriptor debugEnv (w ++ rest) = .ok (rest, .ulong 0x0000468C00000004) :=
  C13_descriptor_round_trip_partial _ _ (by decide) (by simp)

/-- **C13 violated**: the numeric descriptor 0 is written in a form no
descriptor decoder accepts. -/
theorem C13_violated_ulong_zero (env : Env) (rest : Bytes) :
    enc (Descriptor.ulong 0) = [0x00, 0x44] ∧
    decode Descriptor env (0x44 :: rest) = .err (.invalidFormatCode 0x44) := by
  exact ⟨by decide, rfl⟩

/-! ## C49 -/

/-- **C49.** Message ids survive, keeping both their kind and their content. -/
theorem C49_message_id_round_trip (env : Env) :
    (∀ v, RoundTrips env (MessageId.Ulong v)) ∧ (∀ v, RoundTrips env (MessageId.Uuid v)) ∧
    (∀ v : Binary, v.data.length < 2 ^ 32 → RoundTrips env (MessageId.Binary v)) ∧
    (∀ v : Str, v.bytes.length < 2 ^ 32 → RoundTrips env (MessageId.String v)) :=
  ⟨fun v => LawfulCodec.rt env (MessageId.Ulong v) trivial,
   fun v => LawfulCodec.rt env (MessageId.Uuid v) trivial,
   fun v h => LawfulCodec.rt env (MessageId.Binary v) h,
   fun v h => LawfulCodec.rt env (MessageId.String v) h⟩

set_option maxRecDepth 4000 in
/-- **C49.** Only the format codes of the four message-id types are accepted. -/
theorem C49_message_id_codes :
    AcceptsExactly MessageId [0x53, 0x80, 0x44, 0x98, 0xa0, 0xb0, 0xa1, 0xb1] := by
  intro env c
  constructor
  · intro hc input
    simp only [List.mem_cons, List.not_mem_nil, or_false, not_or] at hc
    obtain ⟨h1, h2, h3, h4, h5, h6, h7, h8⟩ := hc
    exact congrFun (ite_ne (fun h => h.elim h1 fun h => h.elim h2 h3) (ite_ne h4
      (ite_ne (fun h => h.elim h5 h6) (ite_ne (fun h => h.elim h7 h8) rfl)))) input
  · intro hc
    simp only [List.mem_cons, List.not_mem_nil, or_false] at hc
    rcases hc with rfl | rfl | rfl | rfl | rfl | rfl | rfl | rfl
    · exact ⟨[0], .Ulong 0, rfl⟩
    · exact ⟨[0, 0, 0, 0, 0, 0, 0, 0], .Ulong 0, rfl⟩
    · exact ⟨[], .Ulong 0, rfl⟩
    · exact ⟨[0, 0, 0, 0, 0, 0, 0, 0, 0, 0, 0, 0, 0, 0, 0, 0],
        .Uuid ⟨[0, 0, 0, 0, 0, 0, 0, 0, 0, 0, 0, 0, 0, 0, 0, 0], rfl⟩, rfl⟩
    · exact ⟨[0], .Binary ⟨[]⟩, rfl⟩
    · exact ⟨[0, 0, 0, 0], .Binary ⟨[]⟩, rfl⟩
    · exact ⟨[0], .String (.lit ""), rfl⟩
    · exact ⟨[0, 0, 0, 0], .String (.lit ""), rfl⟩

example : decode MessageId debugEnv [0xa1, 2, 104, 105, 1] = .ok ([1], .String (.lit "hi")) := by
  decide
example : decode MessageId debugEnv [0xa3, 2, 104, 105] = .err (.invalidFormatCode 0xa3) := by decide

end Amqp
