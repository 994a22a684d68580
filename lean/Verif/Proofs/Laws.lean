import Verif.Codec.Decode
/-!
# Laws of decoders and their closure properties
-/
namespace Amqp
namespace Dec
variable {α β : Type}

/-- A successful decode reads a prefix of the input and would do the same with
any other continuation. -/
def Local (d : Dec α) : Prop :=
  ∀ i r a, d i = .ok (r, a) → ∃ w, i = w ++ r ∧ ∀ more, d (w ++ more) = .ok (more, a)

/-- A successful decode consumes at least one byte. -/
def Progress (d : Dec α) : Prop :=
  ∀ i r a, d i = .ok (r, a) → r.length < i.length

/-- The decoder never panics. -/
def Safe (d : Dec α) : Prop := ∀ i, (d i).NoPanic

/-- `d` reads exactly `w` and yields `a`, whatever follows. -/
def Reads (d : Dec α) (w : Bytes) (a : α) : Prop := ∀ more, d (w ++ more) = .ok (more, a)

theorem bind_eq_ok {d : Dec α} {f : α → Dec β} {i r : Bytes} {b : β} :
    (d >>= f) i = .ok (r, b) ↔ ∃ r' a, d i = .ok (r', a) ∧ f a r' = .ok (r, b) := by
  rw [run_bind]
  cases h : d i with
  | ok p =>
    obtain ⟨r', a⟩ := p
    constructor
    · intro hf; exact ⟨r', a, rfl, hf⟩
    · rintro ⟨_, _, hp, hf⟩
      injection hp with hp; injection hp with h1 h2; subst h1; subst h2; exact hf
  | err e => simp
  | panic p => simp

theorem map_eq_ok {d : Dec α} {f : α → β} {i r : Bytes} {b : β} :
    (f <$> d) i = .ok (r, b) ↔ ∃ a, d i = .ok (r, a) ∧ f a = b := by
  rw [run_map]
  cases h : d i with
  | ok p =>
    obtain ⟨r', a⟩ := p
    simp only [Res.ok.injEq, Prod.mk.injEq]
    constructor
    · rintro ⟨rfl, rfl⟩; exact ⟨a, ⟨rfl, rfl⟩, rfl⟩
    · rintro ⟨a', ⟨rfl, rfl⟩, rfl⟩; exact ⟨rfl, rfl⟩
  | err e => simp
  | panic p => simp

/-! ### Local -/

theorem Local.pure (a : α) : Local (Pure.pure a : Dec α) := by
  intro i r b h
  simp only [run_pure, Res.ok.injEq, Prod.mk.injEq] at h
  obtain ⟨rfl, rfl⟩ := h
  exact ⟨[], rfl, fun _ => rfl⟩

theorem Local.fail (e : ParseError) : Local (Dec.fail e : Dec α) := fun _ _ _ h => by cases h
theorem Local.abort (p : Panic) : Local (Dec.abort p : Dec α) := fun _ _ _ h => by cases h

theorem Local.bind {d : Dec α} {f : α → Dec β} (hd : Local d) (hf : ∀ a, Local (f a)) :
    Local (d >>= f) := by
  intro i r b h
  obtain ⟨r', a, h1, h2⟩ := bind_eq_ok.1 h
  obtain ⟨w1, rfl, k1⟩ := hd _ _ _ h1
  obtain ⟨w2, rfl, k2⟩ := hf a _ _ _ h2
  refine ⟨w1 ++ w2, by simp, fun more => ?_⟩
  rw [List.append_assoc, bind_ok (k1 _), k2]

theorem Local.map {d : Dec α} (f : α → β) (hd : Local d) : Local (f <$> d) := by
  rw [map_eq_pure_bind]; exact hd.bind fun a => Local.pure _

theorem Local.ite {c : Prop} [Decidable c] {d e : Dec α} (hd : Local d) (he : Local e) :
    Local (if c then d else e) := by split <;> assumption

theorem Local.dite {c : Prop} [Decidable c] {d : c → Dec α} {e : ¬ c → Dec α}
    (hd : ∀ h, Local (d h)) (he : ∀ h, Local (e h)) : Local (if h : c then d h else e h) := by
  split <;> simp_all

theorem Local.takeN (n : Nat) : Local (Amqp.takeN n) := by
  intro i r a h
  unfold Amqp.takeN at h
  split at h
  · cases h
  · injection h with h; injection h with h1 h2
    subst h1 h2
    refine ⟨i.take n, (List.take_append_drop n i).symm, fun more => ?_⟩
    have : (i.take n).length = n := by simp; omega
    unfold Amqp.takeN
    rw [if_neg (by simp; omega)]
    rw [List.take_left' this, List.drop_left' this]

theorem Local.readU8 : Local Amqp.readU8 := by
  intro i r a h
  cases i with
  | nil => cases h
  | cons b t =>
    injection h with h; injection h with h1 h2; subst h1 h2
    exact ⟨[b], rfl, fun _ => rfl⟩

theorem Local.indexU8 : Local Amqp.indexU8 := by
  intro i r a h
  cases i with
  | nil => cases h
  | cons b t =>
    injection h with h; injection h with h1 h2; subst h1 h2
    exact ⟨[b], rfl, fun _ => rfl⟩

theorem Local.readBE (k : Nat) : Local (Amqp.readBE k) := (Local.takeN k).map _
theorem Local.readBytesU8 : Local Amqp.readBytesU8 := Local.readU8.bind fun _ => Local.takeN _
theorem Local.readBytesU32 : Local Amqp.readBytesU32 :=
  (Local.readBE 4).bind fun _ => Local.takeN _
theorem Local.fromUtf8 (b : Bytes) : Local (Amqp.fromUtf8 b) :=
  Local.dite (fun _ => Local.pure _) (fun _ => Local.fail _)

theorem Local.decodeN {d : Dec α} (hd : Local d) : ∀ n, Local (Amqp.decodeN d n)
  | 0 => Local.pure _
  | n + 1 => hd.bind fun _ => (Local.decodeN hd n).bind fun _ => Local.pure _

theorem Local.withSlice (n : Nat) (d : Dec α) : Local (Amqp.withSlice n d) := by
  intro i r a h
  unfold Amqp.withSlice at h
  split at h
  · cases h
  · rename_i hlen
    cases hd : d (i.take n) with
    | ok p =>
      rw [hd] at h
      injection h with h; injection h with h1 h2
      subst h1 h2
      refine ⟨i.take n, (List.take_append_drop n i).symm, fun more => ?_⟩
      have ht : (i.take n).length = n := by simp; omega
      unfold Amqp.withSlice
      rw [if_neg (by simp; omega), List.take_left' ht, List.drop_left' ht, hd]
    | err e => rw [hd] at h; cases h
    | panic p => rw [hd] at h; cases h

theorem Local.subChecked (env : Env) (b x y : Nat) : Local (Amqp.subChecked env b x y) :=
  Local.ite (Local.pure _) (Local.ite (Local.abort _) (Local.pure _))
theorem Local.decodeCompound8 (env : Env) : Local (Amqp.decodeCompound8 env) :=
  (Local.takeN _).bind fun _ => (Local.subChecked _ _ _ _).bind fun _ => Local.pure _
theorem Local.decodeCompound32 (env : Env) : Local (Amqp.decodeCompound32 env) :=
  (Local.takeN _).bind fun _ => (Local.subChecked _ _ _ _).bind fun _ => Local.pure _
theorem Local.decodeArrayHeader (env : Env) (fmt : UInt8) : Local (Amqp.decodeArrayHeader env fmt) :=
  Local.ite (Local.decodeCompound8 _) (Local.ite (Local.decodeCompound32 _) (Local.fail _))
theorem Local.decodeListHeader (env : Env) (fmt : UInt8) : Local (Amqp.decodeListHeader env fmt) :=
  Local.ite (Local.pure _)
    (Local.ite (Local.decodeCompound8 _) (Local.ite (Local.decodeCompound32 _) (Local.fail _)))
theorem Local.decodeMapHeader (env : Env) (fmt : UInt8) : Local (Amqp.decodeMapHeader env fmt) :=
  Local.ite (Local.decodeCompound8 _) (Local.ite (Local.decodeCompound32 _) (Local.fail _))
theorem Local.decodeMapWith {K V : Type} [HKey K] (kd : Dec K) (vd : Dec V) (env : Env)
    (fmt : UInt8) : Local (Amqp.decodeMapWith kd vd env fmt) :=
  (Local.decodeMapHeader _ _).bind fun _ => Local.withSlice _ _
theorem Local.decodeListWith {vd : Dec Variant} (h : Local vd) (env : Env) (fmt : UInt8) :
    Local (Amqp.decodeListWith vd env fmt) :=
  (Local.decodeListHeader _ _).bind fun _ => Local.decodeN h _

/-- A local decoder's remainder is a suffix, hence not longer than the input. -/
theorem Local.length_le {d : Dec α} (h : Local d) {i r : Bytes} {a : α} (hd : d i = .ok (r, a)) :
    r.length ≤ i.length := by
  obtain ⟨w, rfl, _⟩ := h _ _ _ hd
  simp

/-! ### Safe -/

theorem Safe.pure (a : α) : Safe (Pure.pure a : Dec α) := fun _ => by simp
theorem Safe.fail (e : ParseError) : Safe (Dec.fail e : Dec α) := fun _ => by simp
theorem Safe.bind {d : Dec α} {f : α → Dec β} (hd : Safe d) (hf : ∀ a, Safe (f a)) :
    Safe (d >>= f) := by
  intro i
  rw [run_bind]
  cases h : d i with
  | ok p => exact hf _ _
  | err e => simp
  | panic p => exact absurd h (hd i p)
theorem Safe.map {d : Dec α} (f : α → β) (hd : Safe d) : Safe (f <$> d) := by
  rw [map_eq_pure_bind]; exact hd.bind fun a => Safe.pure _
theorem Safe.ite {c : Prop} [Decidable c] {d e : Dec α} (hd : Safe d) (he : Safe e) :
    Safe (if c then d else e) := by split <;> assumption
theorem Safe.dite {c : Prop} [Decidable c] {d : c → Dec α} {e : ¬ c → Dec α}
    (hd : ∀ h, Safe (d h)) (he : ∀ h, Safe (e h)) : Safe (if h : c then d h else e h) := by
  split <;> simp_all
theorem Safe.takeN (n : Nat) : Safe (Amqp.takeN n) := by
  intro i; unfold Amqp.takeN; split <;> simp
theorem Safe.readU8 : Safe Amqp.readU8 := by
  intro i; cases i <;> simp [Amqp.readU8]
theorem Safe.readBE (k : Nat) : Safe (Amqp.readBE k) := (Safe.takeN k).map _
theorem Safe.readBytesU8 : Safe Amqp.readBytesU8 := Safe.readU8.bind fun _ => Safe.takeN _
theorem Safe.readBytesU32 : Safe Amqp.readBytesU32 := (Safe.readBE 4).bind fun _ => Safe.takeN _
theorem Safe.fromUtf8 (b : Bytes) : Safe (Amqp.fromUtf8 b) :=
  Safe.dite (fun _ => Safe.pure _) (fun _ => Safe.fail _)

/-! ### Reads -/

theorem Reads.pure (a : α) : Reads (Pure.pure a : Dec α) [] a := fun _ => rfl
theorem Reads.bind {d : Dec α} {f : α → Dec β} {w1 w2 : Bytes} {a : α} {b : β}
    (h1 : Reads d w1 a) (h2 : Reads (f a) w2 b) : Reads (d >>= f) (w1 ++ w2) b := by
  intro more
  rw [List.append_assoc, bind_ok (h1 _), h2]
theorem Reads.map {d : Dec α} {w : Bytes} {a : α} (f : α → β) (h : Reads d w a) :
    Reads (f <$> d) w (f a) := fun more => map_ok (h more)
theorem Reads.readU8 (b : UInt8) : Reads Amqp.readU8 [b] b := fun _ => rfl
theorem Reads.indexU8 (b : UInt8) : Reads Amqp.indexU8 [b] b := fun _ => rfl
theorem Reads.takeN (w : Bytes) {n : Nat} (h : w.length = n) : Reads (Amqp.takeN n) w w := by
  intro more
  unfold Amqp.takeN
  rw [if_neg (by simp; omega), List.take_left' h, List.drop_left' h]
theorem Reads.readBE {k n : Nat} (h : n < 256 ^ k) : Reads (Amqp.readBE k) (beEnc k n) n := by
  have := (Reads.takeN (beEnc k n) (beEnc_length k n)).map beDec
  rwa [beDec_beEnc, Nat.mod_eq_of_lt h] at this
theorem Reads.fromUtf8 (s : RStr) : Reads (Amqp.fromUtf8 s.bytes) [] s := by
  intro more
  unfold Amqp.fromUtf8
  rw [dif_pos s.valid]; rfl
theorem Reads.readBytesU8 (w : Bytes) (h : w.length < 256) :
    Reads Amqp.readBytesU8 (UInt8.ofNat w.length :: w) w := by
  refine Reads.bind (w1 := [_]) (Reads.readU8 _) (Reads.takeN w ?_)
  simp [UInt8.toNat_ofNat']; omega
theorem Reads.readBytesU32 (w : Bytes) (h : w.length < 2 ^ 32) :
    Reads Amqp.readBytesU32 (beEnc 4 w.length ++ w) w :=
  Reads.bind (Reads.readBE (by omega)) (Reads.takeN w rfl)

/-- A local decoder that reads `w` does not succeed on a proper prefix of it. -/
theorem Reads.no_prefix {d : Dec α} {w p s : Bytes} {a : α} (hd : Local d) (h : Reads d w a)
    (hw : w = p ++ s) (hs : s ≠ []) (r : Bytes) (b : α) : d p ≠ .ok (r, b) := by
  intro hp
  obtain ⟨u, rfl, k⟩ := hd _ _ _ hp
  have h1 := h []
  rw [List.append_nil, hw, List.append_assoc, k] at h1
  injection h1 with h1; injection h1 with h1
  simp at h1
  exact hs h1.2

/-- Two values whose encodings, followed by anything, agree are equal. -/
theorem Reads.inj {d : Dec α} {w1 w2 m1 m2 : Bytes} {a b : α} (h1 : Reads d w1 a)
    (h2 : Reads d w2 b) (h : w1 ++ m1 = w2 ++ m2) : a = b ∧ m1 = m2 := by
  have e := h1 m1
  rw [h, h2 m2] at e
  injection e with e; injection e with e1 e2
  exact ⟨e2.symm, e1.symm⟩

theorem Reads.decodeN {d : Dec α} (e : α → Bytes) :
    ∀ (l : List α), (∀ a ∈ l, Reads d (e a) a) →
      Reads (Amqp.decodeN d l.length) (l.flatMap e) l
  | [], _ => fun _ => rfl
  | a :: t, h => by
    intro more
    have h1 := h a (by simp)
    have h2 := Reads.decodeN e t (fun b hb => h b (by simp [hb]))
    have := Reads.bind (f := fun x => Amqp.decodeN d t.length >>= fun xs => Pure.pure (x :: xs))
      h1 (Reads.bind h2 (Reads.pure (a :: t)))
    simpa [Amqp.decodeN] using this more

theorem Reads.withSlice {d : Dec α} {w : Bytes} {a : α} {n : Nat} {r : Bytes}
    (hn : w.length = n) (h : d w = .ok (r, a)) : Reads (Amqp.withSlice n d) w a := by
  intro more
  unfold Amqp.withSlice
  rw [if_neg (by simp; omega), List.take_left' hn, List.drop_left' hn, h]

end Dec

/-- `decode` reads the format code and then runs `decF`. -/
theorem decode_cons {α : Type} [DecodeF α] (env : Env) (fmt : UInt8) (r : Bytes) :
    decode α env (fmt :: r) = decF env fmt r := rfl
@[simp] theorem decode_nil {α : Type} [DecodeF α] (env : Env) :
    decode α env [] = .err (.incomplete 1) := rfl

theorem reads_decode {α : Type} [DecodeF α] {env : Env} {fmt : UInt8} {w : Bytes} {a : α}
    (h : Dec.Reads (decF env fmt) w a) : Dec.Reads (decode α env) (fmt :: w) a :=
  fun more => h more

theorem local_decode {α : Type} [DecodeF α] {env : Env}
    (h : ∀ fmt, Dec.Local (decF (α := α) env fmt)) : Dec.Local (decode α env) :=
  Dec.Local.readU8.bind h

theorem safe_decode {α : Type} [DecodeF α] {env : Env}
    (h : ∀ fmt, Dec.Safe (decF (α := α) env fmt)) : Dec.Safe (decode α env) :=
  Dec.Safe.readU8.bind h

/-- `decode` of a local decoder always consumes at least the format code. -/
theorem progress_decode {α : Type} [DecodeF α] {env : Env}
    (h : ∀ fmt, Dec.Local (decF (α := α) env fmt)) : Dec.Progress (decode α env) := by
  intro i r a hd
  cases i with
  | nil => cases hd
  | cons f t =>
    have := (h f).length_le (hd : decF env f t = _)
    simp; omega

end Amqp
