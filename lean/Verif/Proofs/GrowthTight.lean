import Verif.Proofs.GrowthLists
import Verif.Proofs.WireLaws
/-!
# Frames that grow fourfold

An array of empty symbols takes one byte for each when it is received, and four
when it is sent on.
-/
set_option autoImplicit false
namespace Amqp
open Dec

/-- The bytes of an array of `n` empty symbols. -/
def manySymbols (n : Nat) : Bytes :=
  FC.array32 :: ((beEnc 4 (n + 1 + 4) ++ beEnc 4 n) ++ ([FC.symbol8] ++ List.replicate n 0))

/-- `n` empty symbols. -/
def emptySymbols (n : Nat) : Symbols := ⟨List.replicate n ⟨.lit ""⟩⟩

theorem manySymbols_length (n : Nat) : (manySymbols n).length = n + 10 := by
  simp [manySymbols, beEnc_length]; omega

theorem reads_manySymbols (env : Env) {n : Nat} (hn : n + 5 < 2 ^ 32) :
    Reads (decode Symbols env) (manySymbols n) (emptySymbols n) := by
  refine reads_decode ?_
  have e : (decF env FC.array32 : Dec Symbols) = (fun v : Vec Symbol => ⟨v.items⟩) <$> decF env FC.array32 := rfl
  rw [e]
  have h1 : Reads (decodeN (decF env FC.symbol8 : Dec Symbol) n) (List.replicate n 0)
      (List.replicate n ⟨.lit ""⟩) := by
    have := Reads.decodeN (d := (decF env FC.symbol8 : Dec Symbol)) (fun _ => [0])
      (List.replicate n ⟨.lit ""⟩) (fun a ha => by
        rw [(List.mem_replicate.1 ha).2]
        exact fun more => rfl)
    rw [List.length_replicate] at this
    have e2 : (List.replicate n (Symbol.mk (.lit ""))).flatMap (fun _ => [(0 : UInt8)]) =
        List.replicate n 0 := by
      clear this hn e
      induction n with
      | zero => rfl
      | succ n ih => rw [List.replicate_succ, List.flatMap_cons, ih]; rfl
    rw [e2] at this
    exact this
  have h2 : Reads (decodeN (decF env FC.symbol8 : Dec Symbol) n >>= fun items =>
      Pure.pure (Vec.mk items)) (List.replicate n 0) ⟨List.replicate n ⟨.lit ""⟩⟩ := by
    have := Reads.bind (f := fun items => Pure.pure (Vec.mk items)) h1 (Reads.pure (Vec.mk (List.replicate n (Symbol.mk (.lit "")))))
    rw [List.append_nil] at this
    exact this
  have h3 : Reads (decF env FC.array32 : Dec (Vec Symbol))
      ((beEnc 4 (n + 1 + 4) ++ beEnc 4 n) ++ ([FC.symbol8] ++ List.replicate n 0))
      ⟨List.replicate n ⟨.lit ""⟩⟩ :=
    Reads.bind (reads_compound32 env (by omega) (by omega)) (Reads.bind (Reads.indexU8 _) h2)
  exact h3.map _

theorem emptySymbols_length {n : Nat} (hn : 64 ≤ n) :
    (enc (emptySymbols n)).length = 4 * n + 10 := by
  rw [← LawfulEnc.size_eq]
  have h2 : ∀ n, arrayContentSize (List.replicate n (Symbol.mk (.lit ""))) = 4 * n := by
    intro n
    induction n with
    | zero => rfl
    | succ n ih =>
      rw [List.replicate_succ, arrayContentSize, ih]
      have : asize (Symbol.mk (.lit "")) = 4 := rfl
      omega
  obtain ⟨k, rfl⟩ : ∃ k, n = k + 2 := ⟨n - 2, by omega⟩
  have e : size (emptySymbols (k + 2)) =
      (if arrayContentSize (List.replicate (k + 2) (Symbol.mk (.lit ""))) + 1 > 255 then 10 else 4) +
        arrayContentSize (List.replicate (k + 2) (Symbol.mk (.lit ""))) := rfl
  rw [e, h2, if_pos (by omega)]
  omega

/-! ## Frames -/

theorem sasl_head (w : Bytes) :
    decodeFrameHeader frameTypeSasl ([2, 1, 0, 0] ++ w) = .ok (w, 0) := rfl

theorem amqp_head (w : Bytes) :
    decodeFrameHeader frameTypeAmqp ([2, 0, 0, 0] ++ w) = .ok (w, 0) := rfl

theorem Frame.decode_described (env : Env) (w : Bytes) : Frame.decode env (FC.described :: w) =
    (Amqp.decode Descriptor env >>= Frame.dispatch env) w := rfl

/-- A `sasl-mechanisms` frame without its length. -/
def manyMechanisms (n : Nat) : Bytes :=
  [2, 1, 0, 0] ++ (FC.described :: ([FC.smallUlong, 0x40] ++
    ((FC.list32 :: (beEnc 4 (n + 10 + 4) ++ beEnc 4 1)) ++ (manySymbols n ++ []))))

theorem manyMechanisms_length (n : Nat) : (manyMechanisms n).length = n + 26 := by
  simp [manyMechanisms, manySymbols_length, beEnc_length]; omega

theorem manyMechanisms_decodes (env : Env) {n : Nat} (hn : n + 14 < 2 ^ 32) :
    SaslFrame.decode env (manyMechanisms n) =
      .ok ([], ⟨.SaslMechanisms ⟨emptySymbols n⟩⟩) := by
  have h0 : Reads (decode SaslFrameBody env) (FC.described :: ([FC.smallUlong, 0x40] ++
    ((FC.list32 :: (beEnc 4 (n + 10 + 4) ++ beEnc 4 1)) ++ (manySymbols n ++ []))))
    (.SaslMechanisms ⟨emptySymbols n⟩) := by
    refine reads_union (disp := SaslFrameBody.dispatch env) (mk := SaslFrameBody.SaslMechanisms)
      (d := ListType.inner env) rfl (reads_small_descriptor env (c := 0x40) (by decide)) rfl ?_
    refine reads_inner (α := SaslMechanisms) (t := (emptySymbols n, ())) (count := 1) ?_
      (.given (reads_manySymbols env (by omega)) (.extra _ _))
    rw [List.append_nil, manySymbols_length]
    exact .list32 (by omega) (by omega)
  have h1 := h0 []
  rw [List.append_nil] at h1
  have e : SaslFrame.decode env = decodeFrameHeader frameTypeSasl >>= fun _ =>
      Amqp.decode SaslFrameBody env >>= fun b => pure ⟨b⟩ := rfl
  rw [e, manyMechanisms, bind_ok (sasl_head _), bind_ok h1]
  rfl

theorem manyMechanisms_sent {n : Nat} (hn : 64 ≤ n) :
    (enc (⟨.SaslMechanisms ⟨emptySymbols n⟩⟩ : SaslFrame)).length = 4 * n + 30 := by
  have e : enc (⟨.SaslMechanisms ⟨emptySymbols n⟩⟩ : SaslFrame) =
    frameHeader (headerLen + size (SaslMechanisms.mk (emptySymbols n))) frameTypeSasl 0 ++
      (listHdr 0x40 (size (emptySymbols n)) 1 ++ enc (emptySymbols n)) := rfl
  have h := emptySymbols_length hn
  rw [e, List.length_append, List.length_append, h, LawfulEnc.size_eq (emptySymbols n), h]
  have e2 : (listHdr 0x40 (4 * n + 10) 1).length = 12 := by
    unfold listHdr compoundHdr
    rw [if_pos (by omega)]
    simp [beEnc_length]
    rfl
  rw [e2]
  simp [frameHeader, beEnc_length]
  omega

/-- An `open` frame without its length. -/
def manyLocales (n : Nat) : Bytes :=
  [2, 0, 0, 0] ++ (FC.described :: ([FC.smallUlong, 0x10] ++
    ((FC.list32 :: (beEnc 4 (n + 16 + 4) ++ beEnc 4 6)) ++
      ([0xa1, 0] ++ ([0x40] ++ ([0x40] ++ ([0x40] ++ ([0x40] ++ (manySymbols n ++ [])))))))))

/-- The `open` it stands for. -/
def localesOpen (n : Nat) : Open where
  container_id := .lit ""
  hostname := none
  max_frame_size := 4294967295
  channel_max := 65535
  idle_time_out := none
  outgoing_locales := some (emptySymbols n)
  incoming_locales := none
  offered_capabilities := none
  desired_capabilities := none
  properties := none

theorem manyLocales_length (n : Nat) : (manyLocales n).length = n + 32 := by
  simp [manyLocales, manySymbols_length, beEnc_length]; omega

theorem manyLocales_decodes (env : Env) {n : Nat} (hn : n + 20 < 2 ^ 32) :
    AmqpFrame.decode env (manyLocales n) = .ok ([], ⟨0, .Open (localesOpen n)⟩) := by
  have h0 : Reads (ListType.inner env : Dec Open) (
    ((FC.list32 :: (beEnc 4 (n + 16 + 4) ++ beEnc 4 6)) ++
      ([0xa1, 0] ++ ([0x40] ++ ([0x40] ++ ([0x40] ++ ([0x40] ++ (manySymbols n ++ []))))))))
      (localesOpen n) := by
    refine reads_inner (α := Open) (count := 6) (t := (.lit "", none, (4294967295 : UInt32), (65535 : UInt16), none,
      some (emptySymbols n), none, none, none, none, ())) ?_
      (.given (u := [0xa1, 0]) (fun _ => rfl) (.given (u := [0x40]) (fun _ => rfl)
        (.given (u := [0x40]) (fun _ => rfl) (.given (u := [0x40]) (fun _ => rfl)
        (.given (u := [0x40]) (fun _ => rfl) (.given ?_ (.absent _ ⟨rfl, rfl, rfl, rfl, trivial⟩)))))))
    · have e : ([0xa1, 0] ++ ([0x40] ++ ([0x40] ++ ([0x40] ++ ([0x40] ++ (manySymbols n ++ [])))))).length
        = n + 16 := by simp [manySymbols_length]
      rw [e]
      exact .list32 (by omega) (by omega)
    · intro more
      have := reads_manySymbols env (n := n) (by omega) more
      show decode (Option Symbols) env _ = _
      have e : decode (Option Symbols) env (manySymbols n ++ more) =
        (some <$> decode Symbols env) (manySymbols n ++ more) := rfl
      rw [e, map_ok this]
      rfl
  have h1 := h0 []
  rw [List.append_nil] at h1
  have h2 : Frame.dispatch env (.ulong 0x10) = Frame.Open <$> (ListType.inner env : Dec Open) := rfl
  have h3 : Frame.decode env (FC.described :: ([FC.smallUlong, 0x10] ++
    ((FC.list32 :: (beEnc 4 (n + 16 + 4) ++ beEnc 4 6)) ++
      ([0xa1, 0] ++ ([0x40] ++ ([0x40] ++ ([0x40] ++ ([0x40] ++ (manySymbols n ++ []))))))))) =
      .ok ([], .Open (localesOpen n)) := by
    have h4 := reads_small_descriptor env (c := 0x10) (by decide)
      ((FC.list32 :: (beEnc 4 (n + 16 + 4) ++ beEnc 4 6)) ++
      ([0xa1, 0] ++ ([0x40] ++ ([0x40] ++ ([0x40] ++ ([0x40] ++ (manySymbols n ++ [])))))))
    refine (Frame.decode_described env _).trans ((bind_ok h4).trans ?_)
    rw [h2, map_ok h1]
  have e : AmqpFrame.decode env = decodeFrameHeader frameTypeAmqp >>= fun c =>
      Frame.decode env >>= fun b => pure ⟨c, b⟩ := rfl
  rw [e, manyLocales, bind_ok (amqp_head _), bind_ok h3]
  rfl

theorem manyLocales_sent {n : Nat} (hn : 64 ≤ n) :
    (enc (⟨0, .Open (localesOpen n)⟩ : AmqpFrame)).length = 4 * n + 46 := by
  have h := emptySymbols_length hn
  have e : enc (⟨0, .Open (localesOpen n)⟩ : AmqpFrame) =
    frameHeader (headerLen + size (localesOpen n)) frameTypeAmqp 0 ++ enc (localesOpen n) := rfl
  have e1 : size (localesOpen n) = listSize (sizeFields (ListType.fields Open)
    (ListType.toT (localesOpen n))) := ListType.size_eq' _
  have e2 : sizeFields (ListType.fields Open) (ListType.toT (localesOpen n)) =
    2 + (1 + (5 + (3 + (1 + (size (emptySymbols n) + 4))))) := rfl
  rw [e, List.length_append, ← LawfulEnc.size_eq (localesOpen n), e1, e2,
    LawfulEnc.size_eq (emptySymbols n), h]
  have e3 : ∀ k, 260 ≤ k → listSize k = k + 12 := by
    intro k hk
    unfold listSize
    rw [if_pos (by omega)]
    omega
  rw [e3 _ (by omega)]
  simp [frameHeader, beEnc_length]
  omega

end Amqp
