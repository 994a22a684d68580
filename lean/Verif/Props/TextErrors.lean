import Verif.Props.Formats
import Verif.Props.Errors
/-!
# C94: the error for text that is not UTF-8 says where it stops being text

`StopsBeing s u` (`Spec/TextErrors.lean`) spells out what `valid_up_to` and `error_len` of `u` say
of the bytes `s`.
-/
set_option autoImplicit false
namespace Amqp

/-! ## The error is about the text that was sent -/

theorem textOutcome_ill {α : Type} {mk : Str → α} {n : Nat} {t : Bytes} {r : Res ParseError (Bytes × α)}
    (h : TextOutcome mk n t r) (u : Utf8Error) :
    r = .err (.utf8Error u) ↔ n ≤ t.length ∧ StopsBeing (t.take n) u := by
  cases h with
  | short hl =>
    refine ⟨fun h => (by injection h with h; cases h), fun h => absurd h.1 (by omega)⟩
  | text s cs hl hu hs =>
    exact ⟨fun h => (by cases h), fun h => absurd ⟨cs, hu⟩ h.2.ill⟩
  | illFormed v hl hv =>
    refine ⟨fun h => ?_, fun h => ?_⟩
    · injection h with h; injection h with h; subst h; exact ⟨hl, hv⟩
    · have h1 := h.2.check
      rw [hv.check] at h1
      cases h1
      rfl

/-- **C94**, strings and symbols: this error is returned exactly if the bytes announced are there
and this is what can be said of them. -/
theorem C94_text (env : Env) (n a b c d : UInt8) (t : Bytes) (u : Utf8Error) :
    (decode Str env (0xa1 :: n :: t) = .err (.utf8Error u) ↔
      n.toNat ≤ t.length ∧ StopsBeing (t.take n.toNat) u) ∧
    (decode Str env (0xb1 :: a :: b :: c :: d :: t) = .err (.utf8Error u) ↔
      beDec [a, b, c, d] ≤ t.length ∧ StopsBeing (t.take (beDec [a, b, c, d])) u) ∧
    (decode Symbol env (0xa3 :: n :: t) = .err (.utf8Error u) ↔
      n.toNat ≤ t.length ∧ StopsBeing (t.take n.toNat) u) ∧
    (decode Symbol env (0xb3 :: a :: b :: c :: d :: t) = .err (.utf8Error u) ↔
      beDec [a, b, c, d] ≤ t.length ∧ StopsBeing (t.take (beDec [a, b, c, d])) u) := by
  obtain ⟨h1, h2, h3, h4⟩ := C10_text_is_utf8 env n a b c d t
  exact ⟨textOutcome_ill h1 u, textOutcome_ill h2 u, textOutcome_ill h3 u, textOutcome_ill h4 u⟩

/-- **C94**, every type whose errors are true (C69: all of them): a text of which this is true was
sent, after its length. -/
theorem C94_value {α : Type} [DecodeF α] [Faulty α] (h : ErrorsTrue α) (env : Env) (i : Bytes) (u : Utf8Error)
    (hd : decode α env i = .err (.utf8Error u)) : ∃ s, Prefixed s i ∧ StopsBeing s u := by
  obtain ⟨s, h1, h2⟩ := h env i _ hd
  exact ⟨s, h2, h1⟩

/-- **C94**, frames and messages. -/
theorem C94_received (env : Env) (order : StringVariantMap → List (Str × Variant)) (i : Bytes)
    (u : Utf8Error)
    (h : AmqpFrame.decode env i = .err (.utf8Error u) ∨ SaslFrame.decode env i = .err (.utf8Error u) ∨
      InMessage.decode env i = .err (.utf8Error u) ∨ OutMessage.decode env order i = .err (.utf8Error u)) :
    ∃ s, Prefixed s i ∧ StopsBeing s u := by
  have : ∃ b, StopsBeing b u ∧ Prefixed b i := by
    rcases h with h | h | h | h
    · exact (C69_frames env i _).2.1 h
    · exact (C69_frames env i _).2.2 h
    · exact (C69_messages env order i _).1 h
    · exact (C69_messages env order i _).2 h
  obtain ⟨s, h1, h2⟩ := this
  exact ⟨s, h2, h1⟩

/-! ## What it says -/

/-- **C94**: something can be said exactly of bytes that are not UTF-8, and only one thing. -/
theorem C94_one (s : Bytes) : (¬ ∃ cs, s = utf8 cs) ↔
    ∃ u, StopsBeing s u ∧ ∀ u', StopsBeing s u' → u' = u := by
  refine ⟨fun h => ⟨utf8Error s, stopsBeing_utf8Error h, fun u' hu => ?_⟩, fun ⟨u, h, _⟩ => h.ill⟩
  have h1 := (stopsBeing_utf8Error h).check
  rw [hu.check] at h1
  injection h1

theorem starts_of_valid {tail more : Bytes} (hne : tail ≠ []) (hv : validUtf8 (tail ++ more) = true) :
    (∃ c r, tail = String.utf8EncodeChar c ++ r) ∨ Begins tail := by
  cases tail with
  | nil => exact absurd rfl hne
  | cons a t =>
    obtain ⟨c, t', e, _⟩ := exists_char_of_valid (a := a) (t := t ++ more) hv
    rcases List.append_eq_append_iff.1 (show (a :: t) ++ more = String.utf8EncodeChar c ++ t' from e) with
      ⟨x, h1, _⟩ | ⟨x, h1, _⟩
    · exact .inr ⟨c, x, h1.symm⟩
    · exact .inl ⟨c, x, h1⟩

theorem valid_utf8_append (cs : List Char) (t : Bytes) : validUtf8 (utf8 cs ++ t) = validUtf8 t := by
  induction cs with
  | nil => rfl
  | cons c cs ih =>
    have e : utf8 (c :: cs) = String.utf8EncodeChar c ++ utf8 cs := rfl
    rw [e, List.append_assoc, validUtf8_encodeChar_append, ih]

/-- **C94**: the bytes before `valid_up_to` are text, there is more, and no longer beginning is. -/
theorem C94_valid_up_to (s : Bytes) (u : Utf8Error) (h : StopsBeing s u) :
    (∃ cs, s.take u.validUpTo = utf8 cs) ∧ u.validUpTo < s.length ∧
    ∀ k, k ≤ s.length → (∃ cs, s.take k = utf8 cs) → k ≤ u.validUpTo := by
  obtain ⟨cs, tail, rfl, hv, hne, hno, -⟩ := h
  rw [← hv]
  refine ⟨⟨cs, by simp⟩, ?_, fun k hk ⟨ds, e⟩ => ?_⟩
  · have := List.length_pos_iff.2 hne
    rw [List.length_append]; omega
  · rcases Nat.lt_or_ge (utf8 cs).length k with hlt | hge
    · exfalso
      rw [List.take_append, List.take_of_length_le (by omega)] at e
      have h1 := validUtf8_utf8 ds
      rw [← e, valid_utf8_append] at h1
      have hx : tail.take (k - (utf8 cs).length) ≠ [] := by
        intro h
        have h2 := congrArg List.length h
        have h3 := List.length_pos_iff.2 hne
        rw [List.length_take, List.length_nil] at h2
        omega
      cases ht : tail.take (k - (utf8 cs).length) with
      | nil => exact hx ht
      | cons a t =>
        rw [ht] at h1
        obtain ⟨c, t', e', _⟩ := exists_char_of_valid h1
        refine hno c (t' ++ tail.drop (k - (utf8 cs).length)) ?_
        rw [← List.append_assoc, ← e', ← ht, List.take_append_drop]
    · exact hge

/-- **C94**: without `error_len`, and only then, the text lacks its end: bytes can follow that
make it one, and three suffice. -/
theorem C94_cut (s : Bytes) (u : Utf8Error) (h : StopsBeing s u) :
    (u.errorLen = none ↔ ∃ more cs, s ++ more = utf8 cs) ∧
    (u.errorLen = none → s.length ≤ u.validUpTo + 3 ∧ ∃ more cs, more.length ≤ 3 ∧ s ++ more = utf8 cs) := by
  obtain ⟨cs, tail, rfl, hv, hne, hno, hu⟩ := h
  have key : u.errorLen = none → (utf8 cs ++ tail).length ≤ u.validUpTo + 3 ∧
      ∃ more cs', more.length ≤ 3 ∧ utf8 cs ++ tail ++ more = utf8 cs' := by
    intro hn
    rw [hn] at hu
    obtain ⟨c, r, e⟩ := hu
    have h4 : (String.utf8EncodeChar c).length ≤ 4 := by
      rw [utf8EncodeChar_eq]; (repeat' split) <;> simp
    have h5 := List.length_pos_iff.2 hne
    have h6 : r ≠ [] := fun hr => hno c [] (by rw [← e, hr, List.append_nil, List.append_nil])
    have h7 := List.length_pos_iff.2 h6
    rw [← e, List.length_append] at h4
    refine ⟨by rw [List.length_append, hv]; omega, r, cs ++ [c], by omega, ?_⟩
    rw [List.append_assoc, e, utf8, utf8, List.flatMap_append]
    simp
  refine ⟨⟨fun hn => ?_, fun ⟨more, ds, e⟩ => ?_⟩, key⟩
  · obtain ⟨-, more, ds, -, e⟩ := key hn
    exact ⟨more, ds, e⟩
  · cases hl : u.errorLen with
    | none => rfl
    | some n =>
      exfalso
      rw [hl] at hu
      have h1 := validUtf8_utf8 ds
      rw [← e, List.append_assoc, valid_utf8_append] at h1
      rcases starts_of_valid hne h1 with ⟨c, r, e⟩ | hb
      · exact hno c r e
      · exact hu.1 hb

/-- **C94**: with `error_len`, that many bytes, one to three, are there and begin no text, whatever
follows. -/
theorem C94_wrong (s : Bytes) (u : Utf8Error) (n : Nat) (h : StopsBeing s u) (hn : u.errorLen = some n) :
    1 ≤ n ∧ n ≤ 3 ∧ u.validUpTo + n ≤ s.length ∧ ∀ more cs, s ++ more ≠ utf8 cs := by
  have hw : ∀ more cs, s ++ more ≠ utf8 cs := fun more cs e => by
    have := (C94_cut s u h).1.2 ⟨more, cs, e⟩
    rw [hn] at this; cases this
  obtain ⟨cs, tail, rfl, hv, hne, hno, hu⟩ := h
  rw [hn] at hu
  obtain ⟨-, h0, hl, hb, -⟩ := hu
  refine ⟨h0, ?_, by rw [List.length_append]; omega, hw⟩
  rcases hb with hb | ⟨c, r, e⟩
  · omega
  · have h4 : (String.utf8EncodeChar c).length ≤ 4 := by
      rw [utf8EncodeChar_eq]; (repeat' split) <;> simp
    have hr : r ≠ [] := by
      rintro rfl
      refine hno c (tail.drop n) ?_
      rw [← e, List.append_nil, List.take_append_drop]
    have h7 := List.length_pos_iff.2 hr
    rw [← e, List.length_append, List.length_take] at h4
    omega

/-! ## Examples -/

/-- The euro sign without its last byte, with another byte in its place, and a byte that begins
nothing. -/
example : decode Str debugEnv [0xa1, 3, 0x61, 0xE2, 0x82] = .err (.utf8Error ⟨1, none⟩) := by decide
example : decode Str debugEnv [0xa1, 4, 0x61, 0xE2, 0x82, 0x41] = .err (.utf8Error ⟨1, some 2⟩) := by decide
example : decode Symbol debugEnv [0xa3, 2, 0x61, 0xFF] = .err (.utf8Error ⟨1, some 1⟩) := by decide
example : decode Symbol debugEnv [0xa3, 4, 0xF0, 0x9F, 0x98, 0x20] = .err (.utf8Error ⟨0, some 3⟩) := by
  decide
/-- The hypotheses of `C94_valid_up_to`, `C94_cut` and `C94_wrong` can be met. -/
example : StopsBeing [0x61, 0xE2, 0x82] ⟨1, none⟩ ∧ StopsBeing [0x61, 0xE2, 0x82, 0x41] ⟨1, some 2⟩ :=
  ⟨(utf8Check_iff _ _).1 (by decide), (utf8Check_iff _ _).1 (by decide)⟩
example : ∃ s, Prefixed s [0xa1, 2, 0x61, 0xFF] ∧ StopsBeing s ⟨1, some 1⟩ :=
  C94_value C69_compound.1 debugEnv _ _ rfl

end Amqp
