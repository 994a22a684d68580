import Verif.Proofs.Compound
/-!
# Inversion of successful decodes
-/
namespace Amqp
open Dec

theorem takeN_ok {n : Nat} {i r b : Bytes} (h : takeN n i = .ok (r, b)) :
    i = b ++ r ∧ b.length = n := by
  unfold takeN at h
  split at h
  · cases h
  · injection h with h; injection h with h1 h2
    subst h1 h2
    exact ⟨(List.take_append_drop n i).symm, by simp; omega⟩

theorem readU8_ok {i r : Bytes} {b : UInt8} (h : readU8 i = .ok (r, b)) : i = b :: r := by
  cases i with
  | nil => cases h
  | cons c t => injection h with h; injection h with h1 h2; subst h1 h2; rfl

theorem readBE_ok {k n : Nat} {i r : Bytes} (h : readBE k i = .ok (r, n)) :
    ∃ b, i = b ++ r ∧ b.length = k ∧ n = beDec b ∧ n < 256 ^ k := by
  obtain ⟨b, hb, rfl⟩ := map_eq_ok.1 h
  obtain ⟨rfl, hl⟩ := takeN_ok hb
  exact ⟨b, rfl, hl, rfl, hl ▸ beDec_lt b⟩

theorem readBytesU8_ok {i r b : Bytes} (h : readBytesU8 i = .ok (r, b)) :
    b.length < 256 ∧ i = UInt8.ofNat b.length :: (b ++ r) := by
  obtain ⟨r', n, h1, h2⟩ := bind_eq_ok.1 h
  have := readU8_ok h1; subst this
  obtain ⟨rfl, hl⟩ := takeN_ok h2
  have := n.toNat_lt
  exact ⟨by omega, by rw [hl]; simp⟩

theorem readBytesU32_ok {i r b : Bytes} (h : readBytesU32 i = .ok (r, b)) :
    b.length < 2 ^ 32 ∧ i = beEnc 4 b.length ++ (b ++ r) := by
  obtain ⟨r', n, h1, h2⟩ := bind_eq_ok.1 h
  obtain ⟨c, rfl, hc, rfl, hlt⟩ := readBE_ok h1
  obtain ⟨rfl, hl⟩ := takeN_ok h2
  refine ⟨by omega, ?_⟩
  rw [hl, ← hc, beEnc_beDec]

theorem fromUtf8_ok {b i r : Bytes} {s : RStr} (h : fromUtf8 b i = .ok (r, s)) :
    r = i ∧ s.bytes = b := by
  unfold fromUtf8 at h
  split at h
  · injection h with h; injection h with h1 h2; subst h1 h2; exact ⟨rfl, rfl⟩
  · cases h

theorem decode_ok {α : Type} [DecodeF α] {env : Env} {i r : Bytes} {a : α}
    (h : decode α env i = .ok (r, a)) : ∃ c t, i = c :: t ∧ decF env c t = .ok (r, a) := by
  cases i with
  | nil => cases h
  | cons c t => exact ⟨c, t, rfl, h⟩

theorem validateCode_ok {α : Type} {c k : UInt8} {d : Dec α} {i r : Bytes} {a : α}
    (h : validateCode c k d i = .ok (r, a)) : c = k ∧ d i = .ok (r, a) := by
  unfold validateCode at h
  by_cases hc : c = k
  · rw [if_neg (by simp [hc])] at h; exact ⟨hc, h⟩
  · rw [if_pos hc] at h; cases h

end Amqp
