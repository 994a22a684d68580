import Verif.Proofs.SentLaws
/-!
# C85: what is sent arrives as it was, altered in a known way, or not at all
-/
set_option autoImplicit false
namespace Amqp
open Dec Lenient

/-- **C85.** What decoding makes of an encoded value, for every value below 4 GiB and every
receiver: exactly what `Variant.sent` says. -/
theorem C85_variant (env : Env) (v : Variant) (hs : (enc v).length < 2 ^ 32) (rest : Bytes) :
    (v.sent env.stackDepth).Answer rest (decode Variant env (enc v ++ rest)) :=
  sent_variant env v (by
    have : v.vsize = (enc v).length := v.vsize_eq
    omega) env.stackDepth rest

/-- **C85**, times. -/
theorem C85_time (env : Env) (t : DateTime) (rest : Bytes) :
    t.sent.Answer rest (decode DateTime env (enc t ++ rest)) := sent_datetime env t rest

/-- **C85**, maps whose keys arrive as they are: the properties of a connection, the
annotations and the application properties of a message. -/
theorem C85_map {K : Type} [HKey K] [Encode K] [DecodeF K] (hK : SizeExact K) (env : Env)
    (m : HMap K Variant)
    (hr : ∀ e ∈ m.entries, RoundTrips env e.1 ∧ HKey.hashOk e.1 = true)
    (hn : NodupKeys m.entries) (hs : (enc m).length < 2 ^ 32) (rest : Bytes) :
    ((sentValues env.stackDepth m.entries).andThen fun l => .arrives (HMap.mk l)).Answer rest
      (decode (HMap K Variant) env (enc m ++ rest)) :=
  sent_hmap hK env m hr hn (small_of_length hK (fun v => v.vsize_eq) hs) rest

/-- **C85**, which values arrive: those without a list or a descriptor 0 inside that are not
nested too deeply, and whose times chrono still has on the other side. -/
theorem C85_arrives_iff (v : Variant) (d : Nat) (hv : v.Valid) :
    (∃ w, v.sent d = .arrives w) ↔ v.Plain ∧ v.depth ≤ d ∧ v.Timely := sent_arrives_iff v d hv

/-- **C85**, which times arrive; the others make the receiver panic. -/
theorem C85_times_iff (t : DateTime) :
    ((∃ u, t.sent = .arrives u) ↔ t.Timely) ∧
      (¬(∃ u, t.sent = .arrives u) → t.sent = .crashes .timestampRange) :=
  ⟨datetime_arrives_iff t, datetime_sent_crash⟩

/-- **C85**, nothing is altered unawares: a value that holds neither static symbols nor times
that cannot survive arrives as it is, if it arrives. -/
theorem C85_unaltered (v : Variant) (d : Nat) (w : Variant) (hv : v.Valid) (hl : v.Lasting)
    (h : v.sent d = .arrives w) : w = v := sent_same v d w hv hl h

/-- **C85**, what has arrived is settled: sent on, it arrives as it is, at every receiver with
no less room. -/
theorem C85_settled (v w : Variant) (d d' : Nat) (hd : d ≤ d') (h : v.sent d = .arrives w) :
    w.sent d' = .arrives w := by
  obtain ⟨h1, h2⟩ := sent_survives v d w h
  exact survives_sent w d' h1 (by omega)

/-- **C85**, a time moves by less than a millisecond, or it was in the last second before the
epoch and has lost its sign. -/
theorem C85_time_moved (t u : DateTime) (h : t.sent = .arrives u) :
    (let m := t.secs * 1000 + (t.nanos / 1000000 : Nat)
     let m' := u.secs * 1000 + (u.nanos / 1000000 : Nat)
     u.nanos % 1000000 = 0 ∧ (m' = m ∨ (-1000 < m ∧ m < 0 ∧ m' = -m))) := by
  simp only [DateTime.sent] at h
  simp only
  split at h
  · obtain ⟨h1, h2⟩ := pointOfTime_arrives.1 h; omega
  · split at h
    · obtain ⟨h1, h2⟩ := pointOfTime_arrives.1 h; omega
    · obtain ⟨h1, h2⟩ := pointOfTime_arrives.1 h; omega

/-- **C85**, the outcome does not depend on the build. -/
theorem C85_same_everywhere (env env' : Env) (he : env.stackDepth = env'.stackDepth) (v w : Variant)
    (hs : (enc v).length < 2 ^ 32) (rest : Bytes)
    (h : decode Variant env (enc v ++ rest) = .ok (rest, w)) :
    decode Variant env' (enc v ++ rest) = .ok (rest, w) := by
  have h1 := C85_variant env v hs rest
  have h2 := C85_variant env' v hs rest
  rw [he, ] at h1
  cases hv : v.sent env'.stackDepth with
  | arrives x =>
    rw [hv] at h1 h2
    have h1 : decode Variant env (enc v ++ rest) = .ok (rest, x) := h1
    rw [h] at h1
    injection h1 with h1; injection h1 with _ h1
    subst h1
    exact h2
  | refused => rw [hv] at h1; obtain ⟨e, h1⟩ := h1; rw [h] at h1; cases h1
  | crashes p =>
    rw [hv] at h1
    have h1 : decode Variant env (enc v ++ rest) = .panic p := h1
    rw [h] at h1; cases h1

/-! ### Examples -/

/-- A static symbol becomes a symbol. -/
example : (Variant.staticSymbol (.lit "a")).sent 5 = .arrives (.symbol ⟨.lit "a"⟩) := by
  simp only [Variant.sent]

/-- Two entries that are distinct for the sender are one for the receiver. -/
example : (Variant.map [(.staticSymbol (.lit "a"), .ubyte 1), (.symbol ⟨.lit "a"⟩, .ubyte 2)]).sent 5 =
    .arrives (.map [(.symbol ⟨.lit "a"⟩, .ubyte 2)]) := by
  have : merged [(Variant.symbol ⟨.lit "a"⟩, Variant.ubyte 1), (.symbol ⟨.lit "a"⟩, .ubyte 2)] =
    [(.symbol ⟨.lit "a"⟩, .ubyte 2)] := by rfl
  simp [Variant.sent, sentMap, Fate.andThen, Variant.holdsMap, this]

/-- Such a map can exist at the sender. -/
example : (Variant.map [(.staticSymbol (.lit "a"), .ubyte 1),
    (.symbol ⟨.lit "a"⟩, .ubyte 2)]).Valid := by
  simp only [Variant.Valid, validMap_iff]
  refine ⟨?_, ?_, ?_⟩
  · intro e he; simp only [List.mem_cons, List.not_mem_nil, or_false] at he
    rcases he with rfl | rfl <;> simp only [Variant.Valid, and_self]
  · intro e he; simp only [List.mem_cons, List.not_mem_nil, or_false] at he
    rcases he with rfl | rfl <;> rfl
  · exact List.Pairwise.cons (fun e he => by
      rw [List.mem_singleton] at he; subst he; rfl) (List.pairwise_singleton _ _)

/-- A list inside a map is refused with all that is around it. -/
example : (Variant.map [(.ubyte 1, .list [])]).sent 5 = .refused := by
  simp [Variant.sent, sentMap, Fate.andThen]

/-- The very first instant of chrono makes the receiver panic. -/
example : (Variant.timestamp ⟨-8334632851200, 0, by decide⟩).sent 5 = .crashes .timestampRange := by
  simp only [Variant.sent]; rfl

/-- A quarter of a second before the epoch arrives as a quarter of a second after it. -/
example : (Variant.timestamp ⟨-1, 750000000, by decide⟩).sent 5 =
    .arrives (.timestamp ⟨0, 250000000, by decide⟩) := by
  simp only [Variant.sent]; rfl

/-- Nested more deeply than there is room for. -/
example : (Variant.described (.ulong 1) (.described (.ulong 2) .null)).sent 2 =
    .crashes .stackOverflow := by
  simp [Variant.sent, Fate.andThen]

/-- A value that is neither altered nor refused. -/
example : (Variant.map [(.string (.lit "k"), .described (.ulong 7) (.long 3))]).sent 5 =
    .arrives (.map [(.string (.lit "k"), .described (.ulong 7) (.long 3))]) := by
  have : merged [(Variant.string (.lit "k"), Variant.described (.ulong 7) (.long 3))] =
    [(.string (.lit "k"), .described (.ulong 7) (.long 3))] := by rfl
  simp [Variant.sent, sentMap, Fate.andThen, Variant.holdsMap, this]

end Amqp
