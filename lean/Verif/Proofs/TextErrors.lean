import Verif.Spec.TextErrors
set_option autoImplicit false
namespace Amqp

theorem utf8Check_encodeChar_append (i : Nat) (c : Char) (t : Bytes) :
    utf8Check i (String.utf8EncodeChar c ++ t) =
      utf8Check (i + (String.utf8EncodeChar c).length) t := by
  have hv := validUtf8_encodeChar_append c []
  rw [List.append_nil] at hv
  have hne := utf8EncodeChar_ne_nil c
  have hlen : ∀ a r, String.utf8EncodeChar c = a :: r →
      (a.toNat ≤ 0x7F → r = []) ∧ (0xC2 ≤ a.toNat → a.toNat ≤ 0xDF → r.length = 1) ∧
      (0xE0 ≤ a.toNat → a.toNat ≤ 0xEF → r.length = 2) ∧
      (0xF0 ≤ a.toNat → a.toNat ≤ 0xF4 → r.length = 3) := by
    intro a r h
    have hc := char_toNat_valid c
    rw [utf8EncodeChar_eq] at h
    generalize c.toNat = n at *
    split at h
    · cases h
      rw [UInt8.toNat_ofNat']; simp; omega
    split at h
    · cases h
      rw [UInt8.toNat_ofNat']; simp; omega
    split at h
    · cases h
      rw [UInt8.toNat_ofNat']; simp; omega
    · cases h
      rw [UInt8.toNat_ofNat']; simp; omega
  generalize String.utf8EncodeChar c = e at *
  cases e with
  | nil => exact absurd rfl hne
  | cons a r =>
    obtain ⟨h1, h2, h3, h4⟩ := hlen a r rfl
    rw [validUtf8.eq_def] at hv
    simp only at hv
    rw [List.cons_append, utf8Check.eq_def]
    simp only
    by_cases c1 : a.toNat ≤ 0x7F
    · rw [if_pos c1, h1 c1]; rfl
    rw [if_neg c1] at hv ⊢
    by_cases c2 : 0xC2 ≤ a.toNat ∧ a.toNat ≤ 0xDF
    · match r, h2 c2.1 c2.2 with
      | [b], _ =>
        rw [if_pos c2] at hv ⊢
        simp [validUtf8] at hv
        simp [hv]
    rw [if_neg c2] at hv ⊢
    by_cases c3 : 0xE0 ≤ a.toNat ∧ a.toNat ≤ 0xEF
    · match r, h3 c3.1 c3.2 with
      | [b, d], _ =>
        rw [if_pos c3] at hv ⊢
        simp [validUtf8] at hv
        simp [hv]
    rw [if_neg c3] at hv ⊢
    by_cases c4 : 0xF0 ≤ a.toNat ∧ a.toNat ≤ 0xF4
    · match r, h4 c4.1 c4.2 with
      | [b, d, f], _ =>
        rw [if_pos c4] at hv ⊢
        simp [validUtf8] at hv
        simp [hv]
    · rw [if_neg c4] at hv; simp [validUtf8] at hv

theorem utf8Check_utf8_append (i : Nat) (cs : List Char) (t : Bytes) :
    utf8Check i (utf8 cs ++ t) = utf8Check (i + (utf8 cs).length) t := by
  induction cs generalizing i with
  | nil => rfl
  | cons c cs ih =>
    have e : utf8 (c :: cs) = String.utf8EncodeChar c ++ utf8 cs := rfl
    rw [e, List.append_assoc, utf8Check_encodeChar_append, ih, List.length_append, Nat.add_assoc]

theorem utf8Check_mono {i : Nat} {s : Bytes} {u : Utf8Error} (h : utf8Check i s = some u) :
    i ≤ u.validUpTo := by
  fun_induction utf8Check i s <;> simp_all <;> first | (subst h; exact Nat.le_refl _) | omega

/-- Bytes that the validator accepts as one scalar value are its encoding. -/
theorem char_of_check {s : Bytes} (hne : s ≠ []) (hv : validUtf8 s = true)
    (hs : ∀ p q, s = p ++ q → p ≠ [] → q ≠ [] → validUtf8 p = false) :
    ∃ c, s = String.utf8EncodeChar c := by
  cases s with
  | nil => exact absurd rfl hne
  | cons a t =>
    obtain ⟨c, t', e, _⟩ := exists_char_of_valid hv
    cases t' with
    | nil => exact ⟨c, by rw [e, List.append_nil]⟩
    | cons x y =>
      have := hs _ _ e (utf8EncodeChar_ne_nil c) (by simp)
      have h2 := validUtf8_encodeChar_append c []
      rw [List.append_nil, this] at h2
      cases h2

theorem Begins.valid {x : Bytes} (h : Begins x) : ∃ r, validUtf8 (x ++ r) = true := by
  obtain ⟨c, r, e⟩ := h
  exact ⟨r, by have := validUtf8_encodeChar_append c []; rw [List.append_nil] at this; rw [e, this]; rfl⟩

theorem Begins.left {x y : Bytes} (h : Begins (x ++ y)) : Begins x := by
  obtain ⟨c, r, e⟩ := h
  exact ⟨c, y ++ r, by rw [← e, List.append_assoc]⟩

theorem Begins.take {x : Bytes} {m k : Nat} (h : Begins (x.take k)) (hm : m ≤ k) : Begins (x.take m) := by
  have e : x.take k = x.take m ++ (x.take k).drop m := by
    have := (List.take_append_drop m (x.take k)).symm
    rwa [List.take_take, Nat.min_eq_left hm] at this
  rw [e] at h
  exact h.left

/-! ### Sequences of each length -/

theorem char2 {a b : UInt8} (h : 0xC2 ≤ a.toNat ∧ a.toNat ≤ 0xDF) (hb : isCont b = true) :
    ∃ c, [a, b] = String.utf8EncodeChar c := by
  have c1 : ¬ a.toNat ≤ 0x7F := by omega
  refine char_of_check (by simp) ?_ ?_
  · rw [validUtf8.eq_def]; simp [c1, h, hb, validUtf8]
  · rintro p q e hp hq
    match p, q, hp, hq, e with
    | [x], _, _, _, e => cases e; rw [validUtf8.eq_def]; simp [c1, h]
    | [_, _], y :: _, _, _, e => cases e

theorem char3 {a b d : UInt8} (h : 0xE0 ≤ a.toNat ∧ a.toNat ≤ 0xEF) (hb : second3 a b = true)
    (hd : isCont d = true) : ∃ c, [a, b, d] = String.utf8EncodeChar c := by
  have c1 : ¬ a.toNat ≤ 0x7F := by omega
  have c2 : ¬ (0xC2 ≤ a.toNat ∧ a.toNat ≤ 0xDF) := by omega
  refine char_of_check (by simp) ?_ ?_
  · rw [validUtf8.eq_def]; simp [c1, c2, h, hb, hd, validUtf8]
  · rintro p q e hp hq
    match p, q, hp, hq, e with
    | [x], _, _, _, e => cases e; rw [validUtf8.eq_def]; simp [c1, c2, h]
    | [x, y], _, _, _, e => cases e; rw [validUtf8.eq_def]; simp [c1, c2, h]
    | [_, _, _], y :: _, _, _, e => cases e

theorem char4 {a b d f : UInt8} (h : 0xF0 ≤ a.toNat ∧ a.toNat ≤ 0xF4) (hb : second4 a b = true)
    (hd : isCont d = true) (hf : isCont f = true) : ∃ c, [a, b, d, f] = String.utf8EncodeChar c := by
  have c1 : ¬ a.toNat ≤ 0x7F := by omega
  have c2 : ¬ (0xC2 ≤ a.toNat ∧ a.toNat ≤ 0xDF) := by omega
  have c3 : ¬ (0xE0 ≤ a.toNat ∧ a.toNat ≤ 0xEF) := by omega
  refine char_of_check (by simp) ?_ ?_
  · rw [validUtf8.eq_def]; simp [c1, c2, c3, h, hb, hd, hf, validUtf8]
  · rintro p q e hp hq
    match p, q, hp, hq, e with
    | [x], _, _, _, e => cases e; rw [validUtf8.eq_def]; simp [c1, c2, c3, h]
    | [x, y], _, _, _, e => cases e; rw [validUtf8.eq_def]; simp [c1, c2, c3, h]
    | [x, y, z], _, _, _, e => cases e; rw [validUtf8.eq_def]; simp [c1, c2, c3, h]
    | [_, _, _, _], y :: _, _, _, e => cases e

theorem cont80 : isCont 0x80 = true := by decide

theorem second3_any (a : UInt8) : ∃ b, second3 a b = true := by
  by_cases h : a.toNat = 0xE0
  · exact ⟨0xA0, by simp [second3, h]⟩
  · exact ⟨0x80, by simp only [second3, if_neg h]; split <;> decide⟩

theorem second4_any (a : UInt8) : ∃ b, second4 a b = true := by
  by_cases h : a.toNat = 0xF0
  · exact ⟨0x90, by simp [second4, h]⟩
  · exact ⟨0x80, by simp only [second4, if_neg h]; split <;> decide⟩

theorem begins2 {a : UInt8} (h : 0xC2 ≤ a.toNat ∧ a.toNat ≤ 0xDF) : Begins [a] := by
  obtain ⟨c, e⟩ := char2 h cont80
  exact ⟨c, [0x80], e⟩
theorem begins3' {a b : UInt8} (h : 0xE0 ≤ a.toNat ∧ a.toNat ≤ 0xEF) (hb : second3 a b = true) :
    Begins [a, b] := by
  obtain ⟨c, e⟩ := char3 h hb cont80
  exact ⟨c, [0x80], e⟩
theorem begins3 {a : UInt8} (h : 0xE0 ≤ a.toNat ∧ a.toNat ≤ 0xEF) : Begins [a] := by
  obtain ⟨b, hb⟩ := second3_any a
  exact (show Begins ([a] ++ [b]) from begins3' h hb).left
theorem begins4'' {a b d : UInt8} (h : 0xF0 ≤ a.toNat ∧ a.toNat ≤ 0xF4) (hb : second4 a b = true)
    (hd : isCont d = true) : Begins [a, b, d] := by
  obtain ⟨c, e⟩ := char4 h hb hd cont80
  exact ⟨c, [0x80], e⟩
theorem begins4' {a b : UInt8} (h : 0xF0 ≤ a.toNat ∧ a.toNat ≤ 0xF4) (hb : second4 a b = true) :
    Begins [a, b] :=
  (show Begins ([a, b] ++ [0x80]) from begins4'' h hb cont80).left
theorem begins4 {a : UInt8} (h : 0xF0 ≤ a.toNat ∧ a.toNat ≤ 0xF4) : Begins [a] := by
  obtain ⟨b, hb⟩ := second4_any a
  exact (show Begins ([a] ++ [b]) from begins4' h hb).left

theorem not_begins_lead {a : UInt8} (c1 : ¬ a.toNat ≤ 0x7F) (c2 : ¬ (0xC2 ≤ a.toNat ∧ a.toNat ≤ 0xDF))
    (c3 : ¬ (0xE0 ≤ a.toNat ∧ a.toNat ≤ 0xEF)) (c4 : ¬ (0xF0 ≤ a.toNat ∧ a.toNat ≤ 0xF4)) :
    ¬ Begins [a] := by
  intro h
  obtain ⟨r, h⟩ := h.valid
  rw [List.cons_append, validUtf8.eq_def] at h
  simp [c1, c2, c3, c4] at h
theorem not_begins2 {a b : UInt8} (h : 0xC2 ≤ a.toNat ∧ a.toNat ≤ 0xDF) (hb : ¬ isCont b = true) :
    ¬ Begins [a, b] := by
  have c1 : ¬ a.toNat ≤ 0x7F := by omega
  intro h'
  obtain ⟨r, h'⟩ := h'.valid
  rw [List.cons_append, validUtf8.eq_def] at h'
  simp [c1, h, hb] at h'
theorem not_begins3 {a b : UInt8} (h : 0xE0 ≤ a.toNat ∧ a.toNat ≤ 0xEF) (hb : ¬ second3 a b = true) :
    ¬ Begins [a, b] := by
  have c1 : ¬ a.toNat ≤ 0x7F := by omega
  have c2 : ¬ (0xC2 ≤ a.toNat ∧ a.toNat ≤ 0xDF) := by omega
  intro h'
  obtain ⟨r, h'⟩ := h'.valid
  rw [List.cons_append, validUtf8.eq_def] at h'
  cases r <;> simp [c1, c2, h, hb] at h'
theorem not_begins3' {a b d : UInt8} (h : 0xE0 ≤ a.toNat ∧ a.toNat ≤ 0xEF) (hd : ¬ isCont d = true) :
    ¬ Begins [a, b, d] := by
  have c1 : ¬ a.toNat ≤ 0x7F := by omega
  have c2 : ¬ (0xC2 ≤ a.toNat ∧ a.toNat ≤ 0xDF) := by omega
  intro h'
  obtain ⟨r, h'⟩ := h'.valid
  rw [List.cons_append, validUtf8.eq_def] at h'
  simp [c1, c2, h, hd] at h'
theorem not_begins4 {a b : UInt8} (h : 0xF0 ≤ a.toNat ∧ a.toNat ≤ 0xF4) (hb : ¬ second4 a b = true) :
    ¬ Begins [a, b] := by
  have c1 : ¬ a.toNat ≤ 0x7F := by omega
  have c2 : ¬ (0xC2 ≤ a.toNat ∧ a.toNat ≤ 0xDF) := by omega
  have c3 : ¬ (0xE0 ≤ a.toNat ∧ a.toNat ≤ 0xEF) := by omega
  intro h'
  obtain ⟨r, h'⟩ := h'.valid
  rw [List.cons_append, validUtf8.eq_def] at h'
  match r with
  | [] => simp [c1, c2, c3, h] at h'
  | [_] => simp [c1, c2, c3, h] at h'
  | _ :: _ :: _ => simp [c1, c2, c3, h, hb] at h'
theorem not_begins4' {a b d : UInt8} (h : 0xF0 ≤ a.toNat ∧ a.toNat ≤ 0xF4) (hd : ¬ isCont d = true) :
    ¬ Begins [a, b, d] := by
  have c1 : ¬ a.toNat ≤ 0x7F := by omega
  have c2 : ¬ (0xC2 ≤ a.toNat ∧ a.toNat ≤ 0xDF) := by omega
  have c3 : ¬ (0xE0 ≤ a.toNat ∧ a.toNat ≤ 0xEF) := by omega
  intro h'
  obtain ⟨r, h'⟩ := h'.valid
  rw [List.cons_append, validUtf8.eq_def] at h'
  cases r <;> simp [c1, c2, c3, h, hd] at h'
theorem not_begins4'' {a b d f : UInt8} (h : 0xF0 ≤ a.toNat ∧ a.toNat ≤ 0xF4) (hf : ¬ isCont f = true) :
    ¬ Begins [a, b, d, f] := by
  have c1 : ¬ a.toNat ≤ 0x7F := by omega
  have c2 : ¬ (0xC2 ≤ a.toNat ∧ a.toNat ≤ 0xDF) := by omega
  have c3 : ¬ (0xE0 ≤ a.toNat ∧ a.toNat ≤ 0xEF) := by omega
  intro h'
  obtain ⟨r, h'⟩ := h'.valid
  rw [List.cons_append, validUtf8.eq_def] at h'
  simp [c1, c2, c3, h, hf] at h'

/-! ### The check -/

/-- What the error says, with the index counted from `i`. -/
def StopsFrom (i : Nat) (s : Bytes) (u : Utf8Error) : Prop :=
  ∃ v, u = ⟨i + v.validUpTo, v.errorLen⟩ ∧ StopsBeing s v

theorem StopsFrom.char {i : Nat} {x s : Bytes} {u : Utf8Error} (hx : ∃ c, x = String.utf8EncodeChar c)
    (h : StopsFrom (i + x.length) s u) : StopsFrom i (x ++ s) u := by
  obtain ⟨c, rfl⟩ := hx
  obtain ⟨v, rfl, ⟨cs, tail, rfl, hv, h⟩⟩ := h
  refine ⟨⟨(String.utf8EncodeChar c).length + v.validUpTo, v.errorLen⟩, by simp [Nat.add_assoc],
    ⟨c :: cs, tail, by rw [← List.append_assoc]; rfl, ?_, h⟩⟩
  show (String.utf8EncodeChar c ++ utf8 cs).length = _
  rw [List.length_append, hv]

theorem no_char {i : Nat} {s : Bytes} {e : Option Nat} (h : utf8Check i s = some ⟨i, e⟩) (c : Char)
    (r : Bytes) : s ≠ String.utf8EncodeChar c ++ r := by
  rintro rfl
  rw [utf8Check_encodeChar_append] at h
  have h1 := utf8Check_mono h
  have h2 := List.length_pos_iff.2 (utf8EncodeChar_ne_nil c)
  have h3 : i + (String.utf8EncodeChar c).length ≤ i := h1
  omega

theorem stops_cut {i : Nat} {s : Bytes} (h : utf8Check i s = some ⟨i, none⟩) (hb : Begins s) :
    StopsFrom i s ⟨i, none⟩ :=
  ⟨⟨0, none⟩, rfl, ⟨[], s, rfl, rfl, fun e => (by subst e; cases h), no_char h, hb⟩⟩

theorem stops_wrong {i n : Nat} {s : Bytes} (h : utf8Check i s = some ⟨i, some n⟩) (h0 : 0 < n)
    (hl : n ≤ s.length) (hb : n = 1 ∨ Begins (s.take n)) (m : Nat) (hm : m ≤ n + 1) (hs : m ≤ s.length)
    (hx : ¬ Begins (s.take m)) : StopsFrom i s ⟨i, some n⟩ :=
  ⟨⟨0, some n⟩, rfl, ⟨[], s, rfl, rfl, fun e => (by subst e; cases h), no_char h,
    fun e => hx (by rw [← List.take_length (l := s)] at e; exact e.take hs), h0, hl, hb,
    fun k hk hb' => by
      have : ¬ m ≤ k := fun hmk => hx (hb'.take hmk)
      omega⟩⟩

theorem utf8Check_stops {i : Nat} {s : Bytes} {u : Utf8Error} (h : utf8Check i s = some u) :
    StopsFrom i s u := by
  fun_induction utf8Check i s
  case case1 => cases h
  case case2 i a t c1 ih =>
    refine StopsFrom.char (x := [a]) ?_ (ih h)
    refine char_of_check (by simp) (by rw [validUtf8.eq_def]; simp [c1, validUtf8]) ?_
    rintro p q e hp hq
    match p, q, hp, hq, e with
    | [_], y :: _, _, _, e => cases e
  all_goals first
    | exact StopsFrom.char (x := [_, _]) (char2 ‹_› ‹_›) (by apply_assumption; assumption)
    | exact StopsFrom.char (x := [_, _, _]) (char3 ‹_› ‹_› ‹_›) (by apply_assumption; assumption)
    | exact StopsFrom.char (x := [_, _, _, _]) (char4 ‹_› ‹_› ‹_› ‹_›) (by apply_assumption; assumption)
    | (cases h
       exact stops_cut (by rw [utf8Check.eq_def]; simp [*])
        (by first | exact begins2 ‹_› | exact begins3 ‹_› | exact begins3' ‹_› ‹_› | exact begins4 ‹_›
                  | exact begins4' ‹_› ‹_› | exact begins4'' ‹_› ‹_› ‹_›))
    | (cases h
       exact stops_wrong (by rw [utf8Check.eq_def]; simp [*]) (by decide) (by simp) (.inl rfl) 1 (by decide)
        (by simp) (not_begins_lead ‹_› ‹_› ‹_› ‹_›))
    | (cases h
       exact stops_wrong (by rw [utf8Check.eq_def]; simp [*]) (by decide) (by simp) (.inl rfl) 2 (by decide)
        (by simp) (by first | exact not_begins2 ‹_› ‹_› | exact not_begins3 ‹_› ‹_› | exact not_begins4 ‹_› ‹_›))
    | (cases h
       exact stops_wrong (by rw [utf8Check.eq_def]; simp [*]) (by decide) (by simp)
        (.inr (by first | exact begins3' ‹_› ‹_› | exact begins4' ‹_› ‹_›)) 3 (by decide)
        (by simp) (by first | exact not_begins3' ‹_› ‹_› | exact not_begins4' ‹_› ‹_›))
    | (cases h
       exact stops_wrong (by rw [utf8Check.eq_def]; simp [*]) (by decide) (by simp)
        (.inr (begins4'' ‹_› ‹_› ‹_›)) 4 (by decide) (by simp) (not_begins4'' ‹_› ‹_›))

/-- What the error says determines it. -/
theorem StopsBeing.check {s : Bytes} {u : Utf8Error} (h : StopsBeing s u) : utf8Check 0 s = some u := by
  obtain ⟨cs, tail, rfl, hv, hne, hno, hu⟩ := h
  rw [utf8Check_utf8_append, Nat.zero_add, hv]
  cases hc : utf8Check u.validUpTo tail with
  | none =>
    rw [utf8Check_eq_none] at hc
    cases tail with
    | nil => exact absurd rfl hne
    | cons a t =>
      obtain ⟨c, t', e, _⟩ := exists_char_of_valid hc
      exact absurd e (hno c t')
  | some w =>
    obtain ⟨v, rfl, ⟨cs', tail', e, hv', hne', hno', hw⟩⟩ := utf8Check_stops hc
    cases cs' with
    | cons c cs' =>
      refine absurd ?_ (hno c (utf8 cs' ++ tail'))
      rw [e, ← List.append_assoc]; rfl
    | nil =>
      have e' : tail = tail' := e
      subst e'
      obtain ⟨a, l⟩ := u
      obtain ⟨a', l'⟩ := v
      have : 0 = a' := hv'
      subst this
      congr 2
      cases l with
      | none =>
        cases l' with
        | none => rfl
        | some n => exact absurd hu hw.1
      | some m =>
        cases l' with
        | none => exact absurd hw hu.1
        | some n =>
          obtain ⟨_, h1, h2, h3, h4⟩ := hu
          obtain ⟨_, k1, k2, k3, k4⟩ := hw
          have a1 : m ≤ n := by
            rcases h3 with h3 | h3
            · omega
            · exact k4 m h2 h3
          have a2 : n ≤ m := by
            rcases k3 with k3 | k3
            · omega
            · exact h4 n k2 k3
          rw [Nat.le_antisymm a1 a2]

theorem utf8Check_iff (s : Bytes) (u : Utf8Error) : utf8Check 0 s = some u ↔ StopsBeing s u := by
  refine ⟨fun h => ?_, StopsBeing.check⟩
  obtain ⟨⟨a, l⟩, rfl, h'⟩ := utf8Check_stops h
  rw [Nat.zero_add]
  exact h'

/-- The error for bytes that are not UTF-8 says what is the case, and nothing else is. -/
theorem utf8Error_iff {s : Bytes} (h : ¬ validUtf8 s = true) (u : Utf8Error) :
    u = utf8Error s ↔ StopsBeing s u := by
  rw [← utf8Check_iff]
  unfold utf8Error
  cases hc : utf8Check 0 s with
  | none => exact absurd ((utf8Check_eq_none 0 s).1 hc) h
  | some v => exact ⟨fun e => by rw [e]; rfl, fun e => by cases e; rfl⟩

theorem StopsBeing.ill {s : Bytes} {u : Utf8Error} (h : StopsBeing s u) : ¬ ∃ cs, s = utf8 cs := by
  have := h.check
  rintro ⟨cs, rfl⟩
  rw [(utf8Check_eq_none 0 _).2 (validUtf8_utf8 cs)] at this
  cases this

theorem stopsBeing_utf8Error {s : Bytes} (h : ¬ ∃ cs, s = utf8 cs) : StopsBeing s (utf8Error s) :=
  (utf8Error_iff (fun hv => h ((validUtf8_iff s).1 hv)) _).1 rfl

end Amqp
