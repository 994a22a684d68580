import Verif.Spec.EndOfStream
import Verif.Props.Handshake
/-!
# Reading a stream to its end
-/
set_option autoImplicit false
namespace Amqp

section
variable {ε T S : Type} {decode : S → Bytes → S × Bytes × Answer ε T}

/-- What makes a codec independent of how the bytes arrive. -/
structure StreamCodec (decode : S → Bytes → S × Bytes × Answer ε T) (measure : S → Bytes → Nat) : Prop where
  more : ∀ st src more, (decode st src).2.2 ≠ .none →
    decode st (src ++ more) = ((decode st src).1, (decode st src).2.1 ++ more, (decode st src).2.2)
  resume : ∀ st src more, (decode st src).2.2 = .none →
    decode st (src ++ more) = decode (decode st src).1 ((decode st src).2.1 ++ more)
  shrink : ∀ st src a, (decode st src).2.2 = .some a →
    measure (decode st src).1 (decode st src).2.1 < measure st src

theorem Drains.det {st : S} {src : Bytes} {items items' : List T} {e e' : Ending ε}
    (h : Drains decode st src items e) (h' : Drains decode st src items' e') :
    items = items' ∧ e = e' := by
  induction h generalizing items' e' with
  | item h _ ih =>
    cases h' with
    | item h2 h3 =>
      rw [h] at h2
      simp only [Prod.mk.injEq, Answer.some.injEq] at h2
      obtain ⟨rfl, rfl, rfl⟩ := h2
      obtain ⟨rfl, rfl⟩ := ih h3
      exact ⟨rfl, rfl⟩
    | _ => simp_all
  | _ => cases h' <;> simp_all

theorem Drains.total {measure : S → Bytes → Nat} (hc : StreamCodec decode measure) (st : S)
    (src : Bytes) : ∃ items e, Drains decode st src items e := by
  induction hm : measure st src using Nat.strongRecOn generalizing st src with
  | ind n ih =>
    rcases hd : decode st src with ⟨st', src', ans⟩
    cases ans with
    | none =>
      cases src' with
      | nil => exact ⟨_, _, .done hd⟩
      | cons x t => exact ⟨_, _, .left hd (by simp)⟩
    | err e => exact ⟨_, _, .failed hd⟩
    | panic p => exact ⟨_, _, .panicked hd⟩
    | some a =>
      have := hc.shrink st src a (by rw [hd])
      rw [hd, hm] at this
      obtain ⟨items, e, h⟩ := ih _ this st' src' rfl
      exact ⟨_, _, .item hd h⟩

/-- What is to come from a reader. -/
def Coming (decode : S → Bytes → S × Bytes × Answer ε T) (reads : List Read) (r : Reader S)
    (items : List T) (e : Ending ε) : Prop :=
  if r.eof then r.readable = true ∧ Drains decode r.state r.buffer items e
  else Drains decode r.state (r.buffer ++ delivered reads) items e

/-- What one call yields fits what was to come. -/
def FitsPoll (decode : S → Bytes → S × Bytes × Answer ε T) (items : List T) (e : Ending ε)
    (before : List Read) (eof : Bool) : Reader S × List Read × Polled ε T → Prop
  | (r', reads', .item a) => ∃ t, items = a :: t ∧ Coming decode reads' r' t e ∧
      blocks reads' ≤ blocks before ∧ (eof = true ∨ Ends before → r'.eof = true ∨ Ends reads')
  | (_, _, .ended e') => items = [] ∧ e' = e
  | (r', reads', .nothing) => Coming decode reads' r' items e ∧
      (eof = true ∨ Ends before → Ends reads' ∧ blocks reads' < blocks before)

theorem Drains.congr {st st2 : S} {src src2 : Bytes} {items : List T} {e : Ending ε}
    (h : decode st src = decode st2 src2) (hd : Drains decode st src items e) :
    Drains decode st2 src2 items e := by
  cases hd with
  | item h1 h2 => exact .item (h ▸ h1) h2
  | done h1 => exact .done (h ▸ h1)
  | left h1 h2 => exact .left (h ▸ h1) h2
  | failed h1 => exact .failed (h ▸ h1)
  | panicked h1 => exact .panicked (h ▸ h1)

/-- What the call of the codec yields fits what was to come. -/
def FitsNow (decode : S → Bytes → S × Bytes × Answer ε T) (items : List T) (e : Ending ε)
    (reads : List Read) (eof : Bool) : Reader S × Polled ε T → Prop
  | (r', .item a) => ∃ t, items = a :: t ∧ Coming decode reads r' t e ∧ r'.eof = eof
  | (_, .ended e') => items = [] ∧ e' = e
  | (r', .nothing) => eof = false ∧ r'.eof = false ∧ Coming decode reads r' items e

theorem now_fits {measure : S → Bytes → Nat} (hc : StreamCodec decode measure)
    (reads : List Read) (r : Reader S) (items : List T) (e : Ending ε)
    (h : Coming decode reads r items e) :
    FitsNow decode items e reads r.eof (r.now decode) := by
  obtain ⟨st, src, eof, readable⟩ := r
  cases eof with
  | true =>
    simp only [Coming, if_true] at h
    obtain ⟨rfl, h⟩ := h
    simp only [Reader.now, if_true]
    cases h with
    | item h1 h2 =>
      rw [h1]
      exact ⟨_, rfl, by simpa [Coming] using h2, rfl⟩
    | done h1 => rw [h1]; exact ⟨rfl, rfl⟩
    | left h1 h2 =>
      rw [h1]
      simp only [decodeEof]
      rw [if_neg (by simpa using h2)]
      exact ⟨rfl, rfl⟩
    | failed h1 => rw [h1]; exact ⟨rfl, rfl⟩
    | panicked h1 => rw [h1]; exact ⟨rfl, rfl⟩
  | false =>
    simp only [Coming, Bool.false_eq_true, if_false] at h
    cases readable with
    | false =>
      simp only [Reader.now, Bool.false_eq_true, if_false]
      exact ⟨rfl, rfl, by simpa [Coming] using h⟩
    | true =>
      simp only [Reader.now, if_true, Bool.false_eq_true, if_false]
      have hm := hc.more st src (delivered reads)
      have hr := hc.resume st src (delivered reads)
      rcases hd : decode st src with ⟨st', src', ans⟩
      rw [hd] at hm hr
      cases ans with
      | none =>
        have := hr rfl
        exact ⟨rfl, rfl, by simpa [Coming] using h.congr this⟩
      | some a =>
        have hm := hm (by simp)
        cases h with
        | item h1 h2 =>
          rw [hm] at h1
          simp only [Prod.mk.injEq, Answer.some.injEq] at h1
          obtain ⟨rfl, rfl, rfl⟩ := h1
          exact ⟨_, rfl, by simpa [Coming] using h2, rfl⟩
        | _ => simp_all
      | err e =>
        have hm := hm (by simp)
        cases h <;> simp_all [FitsNow]
      | panic e =>
        have hm := hm (by simp)
        cases h <;> simp_all [FitsNow]

theorem poll_fits {measure : S → Bytes → Nat} (hc : StreamCodec decode measure) :
    ∀ (reads : List Read) (r : Reader S) (items : List T) (e : Ending ε),
      Coming decode reads r items e → FitsPoll decode items e reads r.eof (r.poll decode reads) := by
  intro reads
  induction reads with
  | nil =>
    intro r items e h
    have hn := now_fits hc [] r items e h
    rw [Reader.poll.eq_def]
    rcases hnow : r.now decode with ⟨r', y⟩
    rw [hnow] at hn
    simp only [hnow]
    cases y with
    | item a =>
      obtain ⟨t, h1, h2, h3⟩ := hn
      exact ⟨t, h1, h2, Nat.le_refl _, fun h => by rw [h3]; exact h⟩
    | ended e => exact hn
    | nothing => exact ⟨hn.2.2, fun h => by rw [hn.1] at h; simp [Ends] at h⟩
  | cons x t ih =>
    intro r items e h
    have hn := now_fits hc (x :: t) r items e h
    rw [Reader.poll.eq_def]
    rcases hnow : r.now decode with ⟨r', y⟩
    rw [hnow] at hn
    simp only [hnow]
    cases y with
    | item a =>
      obtain ⟨t, h1, h2, h3⟩ := hn
      exact ⟨t, h1, h2, Nat.le_refl _, fun h => by rw [h3]; exact h⟩
    | ended e => exact hn
    | nothing =>
      obtain ⟨h0, h1, h2⟩ := hn
      cases x with
      | wouldBlock =>
        refine ⟨?_, fun h => ⟨by simpa [Ends, h0] using h, by simp only [blocks]; omega⟩⟩
        unfold Coming at h2 ⊢
        rw [h1] at h2 ⊢
        exact h2
      | bytes b =>
        simp only
        have hcm : Coming decode t ⟨r'.state, r'.buffer ++ b, r'.eof || b.isEmpty, true⟩ items e := by
          unfold Coming at h2 ⊢
          rw [h1] at h2 ⊢
          cases b with
          | nil => simpa [delivered] using h2
          | cons y b => simpa [delivered] using h2
        have := ih _ _ _ hcm
        have hends : r.eof = true ∨ Ends (.bytes b :: t) →
            (r'.eof || b.isEmpty) = true ∨ Ends t := by
          rw [h0, h1]
          cases b <;> simp [Ends]
        revert this
        generalize Reader.poll decode t _ = q
        obtain ⟨r'', reads', y⟩ := q
        cases y with
        | item a => exact fun ⟨t', k1, k2, k3, k4⟩ => ⟨t', k1, k2, k3, fun h => k4 (hends h)⟩
        | ended e => exact id
        | nothing => exact fun ⟨k1, k2⟩ => ⟨k1, fun h => k2 (hends h)⟩

/-- However often the reader is polled, it yields the items of the whole stream in order; and
when it ends, it has yielded all of them and ends as the whole stream does. -/
theorem run_fits {measure : S → Bytes → Nat} (hc : StreamCodec decode measure) :
    ∀ (n : Nat) (reads : List Read) (r : Reader S) (items : List T) (e : Ending ε),
      Coming decode reads r items e →
      (r.run decode n reads).1 <+: items ∧
      (∀ e', (r.run decode n reads).2 = some e' → r.run decode n reads = (items, some e)) ∧
      (r.eof = true ∨ Ends reads → items.length + blocks reads < n →
        r.run decode n reads = (items, some e)) := by
  intro n
  induction n with
  | zero => intro reads r items e _; simp [Reader.run]
  | succ n ih =>
    intro reads r items e h
    have hp := poll_fits hc reads r items e h
    unfold Reader.run
    rcases hq : r.poll decode reads with ⟨r', reads', y⟩
    rw [hq] at hp
    cases y with
    | item a =>
      obtain ⟨t, rfl, k2, k3, k4⟩ := hp
      obtain ⟨i1, i2, i3⟩ := ih reads' r' t e k2
      simp only [List.length_cons]
      refine ⟨by simpa using i1, fun e' h => ?_, fun h hn => ?_⟩
      · rw [i2 e' h]
      · rw [i3 (k4 h) (by omega)]
    | ended e' =>
      obtain ⟨rfl, rfl⟩ := hp
      simp
    | nothing =>
      obtain ⟨k1, k2⟩ := hp
      obtain ⟨i1, i2, i3⟩ := ih reads' r' items e k1
      refine ⟨i1, i2, fun h hn => i3 (Or.inr (k2 h).1) ?_⟩
      have := (k2 h).2
      omega

/-- A reader that waits for bytes has nothing to yield. -/
def Seen (decode : S → Bytes → S × Bytes × Answer ε T) (r : Reader S) : Prop :=
  r.readable = false → (decode r.state r.buffer).2.2 = .none

theorem now_seen {measure : S → Bytes → Nat} (hc : StreamCodec decode measure) {r r' : Reader S}
    {y : Polled ε T} (h : Seen decode r) (hn : r.now decode = (r', y)) :
    Seen decode r' ∧ (y = .nothing → (decode r'.state r'.buffer).2.2 = .none) := by
  obtain ⟨st, src, eof, readable⟩ := r
  cases readable with
  | false =>
    simp only [Reader.now, Bool.false_eq_true, if_false, Prod.mk.injEq] at hn
    obtain ⟨rfl, rfl⟩ := hn
    exact ⟨h, fun _ => h rfl⟩
  | true =>
    simp only [Reader.now, if_true] at hn
    cases eof with
    | true =>
      simp only [if_true, Prod.mk.injEq] at hn
      obtain ⟨rfl, rfl⟩ := hn
      refine ⟨fun h => by simp at h, ?_⟩
      unfold decodeEof
      intro h
      split at h
      · cases h
      · split at h <;> cases h
      · cases h
      · cases h
    | false =>
      simp only [Bool.false_eq_true, if_false] at hn
      have hr := hc.resume st src []
      rcases hd : decode st src with ⟨st', src', ans⟩
      rw [hd] at hn hr
      cases ans with
      | none =>
        simp only [Prod.mk.injEq] at hn
        obtain ⟨rfl, rfl⟩ := hn
        have := hr rfl
        simp only [List.append_nil] at this
        rw [hd] at this
        have : (decode st' src').2.2 = .none := by rw [← this]
        exact ⟨fun _ => this, fun _ => this⟩
      | some a =>
        simp only [Prod.mk.injEq] at hn
        obtain ⟨rfl, rfl⟩ := hn
        exact ⟨fun h => by simp at h, fun h => by cases h⟩
      | err a =>
        simp only [Prod.mk.injEq] at hn
        obtain ⟨rfl, rfl⟩ := hn
        exact ⟨fun h => by simp at h, fun h => by cases h⟩
      | panic a =>
        simp only [Prod.mk.injEq] at hn
        obtain ⟨rfl, rfl⟩ := hn
        exact ⟨fun h => by simp at h, fun h => by cases h⟩

theorem poll_seen {measure : S → Bytes → Nat} (hc : StreamCodec decode measure) :
    ∀ (reads : List Read) (r r' : Reader S) (reads' : List Read) (y : Polled ε T), Seen decode r →
      r.poll decode reads = (r', reads', y) →
      Seen decode r' ∧ (y = .nothing → blocks reads' < blocks reads ∨
        (reads' = [] ∧ (decode r'.state r'.buffer).2.2 = .none)) := by
  intro reads
  induction reads with
  | nil =>
    intro r r' reads' y h hp
    rw [Reader.poll.eq_def] at hp
    rcases hnow : r.now decode with ⟨r1, y1⟩
    have hs := now_seen hc h hnow
    simp only [hnow] at hp
    cases y1 <;> simp only [Prod.mk.injEq] at hp <;> obtain ⟨rfl, rfl, rfl⟩ := hp
    · exact ⟨hs.1, fun h => by cases h⟩
    · exact ⟨hs.1, fun h => by cases h⟩
    · exact ⟨hs.1, fun _ => .inr ⟨rfl, hs.2 rfl⟩⟩
  | cons x t ih =>
    intro r r' reads' y h hp
    rw [Reader.poll.eq_def] at hp
    rcases hnow : r.now decode with ⟨r1, y1⟩
    have hs := now_seen hc h hnow
    simp only [hnow] at hp
    cases y1 with
    | item a =>
      simp only [Prod.mk.injEq] at hp
      obtain ⟨rfl, rfl, rfl⟩ := hp
      exact ⟨hs.1, fun h => by cases h⟩
    | ended e =>
      simp only [Prod.mk.injEq] at hp
      obtain ⟨rfl, rfl, rfl⟩ := hp
      exact ⟨hs.1, fun h => by cases h⟩
    | nothing =>
      cases x with
      | wouldBlock =>
        simp only [Prod.mk.injEq] at hp
        obtain ⟨rfl, rfl, rfl⟩ := hp
        exact ⟨hs.1, fun _ => .inl (by simp only [blocks]; omega)⟩
      | bytes b =>
        simp only at hp
        exact ih _ _ _ _ (fun h => by simp at h) hp

/-- Items are yielded as soon as their bytes have been read. -/
theorem run_prompt {measure : S → Bytes → Nat} (hc : StreamCodec decode measure) :
    ∀ (n k : Nat) (reads : List Read) (r : Reader S) (items : List T) (e : Ending ε),
      Coming decode reads r items e → Seen decode r → k ≤ items.length → k + blocks reads ≤ n →
      k ≤ (r.run decode n reads).1.length := by
  intro n
  induction n with
  | zero => intro k reads r items e _ _ _ h; omega
  | succ n ih =>
    intro k reads r items e h hs hk hn
    have hp := poll_fits hc reads r items e h
    unfold Reader.run
    rcases hq : r.poll decode reads with ⟨r', reads', y⟩
    rw [hq] at hp
    have hseen := poll_seen hc reads r r' reads' y hs hq
    cases y with
    | item a =>
      obtain ⟨t, rfl, k2, k3, k4⟩ := hp
      simp only [List.length_cons] at hk ⊢
      cases k with
      | zero => exact Nat.zero_le _
      | succ k => exact Nat.succ_le_succ (ih k reads' r' t e k2 hseen.1 (by omega) (by omega))
    | ended e' =>
      obtain ⟨rfl, rfl⟩ := hp
      simpa using hk
    | nothing =>
      obtain ⟨k1, k2⟩ := hp
      rcases hseen.2 rfl with hb | ⟨rfl, hd⟩
      · exact ih k reads' r' items e k1 hseen.1 hk (by omega)
      · have : items = [] := by
          have hD : Drains decode r'.state r'.buffer items e := by
            unfold Coming at k1
            split at k1
            · exact k1.2
            · simpa [delivered] using k1
          cases hD with
          | item h1 _ => rw [h1] at hd; cases hd
          | _ => rfl
        subst this
        simp only [List.length_nil, Nat.le_zero] at hk
        omega

/-- A new reader. -/
theorem run_new {measure : S → Bytes → Nat} (hc : StreamCodec decode measure) {reads : List Read}
    (he : Ends reads) {st : S} {items : List T} {e : Ending ε} :
    Drains decode st (delivered reads) items e ↔
      ∃ n, (Reader.new st).run decode n reads = (items, some e) := by
  constructor
  · intro h
    exact ⟨_, (run_fits hc _ reads (.new st) items e (by simpa [Coming, Reader.new] using h)).2.2
      (.inr he) (Nat.lt_succ_self _)⟩
  · rintro ⟨n, h⟩
    obtain ⟨items', e', hd⟩ := Drains.total hc st (delivered reads)
    have := (run_fits hc n reads (.new st) items' e' (by simpa [Coming, Reader.new] using hd)).2.1 e
      (by rw [h])
    rw [h] at this
    simp only [Prod.mk.injEq, Option.some.injEq] at this
    obtain ⟨rfl, rfl⟩ := this
    exact hd
end

/-! ## The codec of frames -/

section
variable {T : Type}

theorem frameCodec_stream (env : Env) (dec : Dec T) : StreamCodec (frameCodec env dec) drainMeasure where
  more st src more h := by
    unfold frameCodec at h ⊢
    simp only at h ⊢
    rw [codecDecode_more h]
  resume st src more h := by
    unfold frameCodec at h ⊢
    simp only at h ⊢
    rw [codecDecode_resume h]
  shrink st src a h := by
    unfold frameCodec at h ⊢
    simp only at h ⊢
    apply codecDecode_some_lt (env := env) (dec := dec) (a := a)
    rw [← h]

/-- What the decoder of the codec needs. -/
def Needs4 (dec : Dec T) : Prop := ∀ b r a, dec b = .ok (r, a) → 4 ≤ b.length

theorem codecDecode_item {env : Env} {dec : Dec T} (hdec : Needs4 dec) {src : Bytes}
    {st' : DecodeState} {src' : Bytes} {a : T} (hlen : src.length < 2 ^ 63)
    (h : codecDecode env dec .frameHeader src = ⟨st', src', .some a⟩) :
    st' = .frameHeader ∧ ∃ w, src = w ++ src' ∧ IsFrame w ∧ dec (w.drop 4) = .ok ([], a) := by
  by_cases h8 : src.length < 8
  · rw [codecDecode_wait h8] at h; simp at h
  by_cases h4 : beDec (src.take 4) < 4
  · cases he : env.overflowChecks with
    | true => rw [codecDecode_abort (by omega) h4 he] at h; simp at h
    | false =>
      rw [codecDecode_wrap (by omega) h4 he] at h
      have := (frameStep_some h).2.2.1
      simp only [List.length_drop] at this
      omega
  · rw [codecDecode_header (by omega) (by omega)] at h
    obtain ⟨h1, h2, h3, h5⟩ := frameStep_some h
    have hn := hdec _ _ _ h5
    simp only [List.length_drop, List.length_take] at h3 hn
    refine ⟨h1, src.take (beDec (src.take 4)), ?_, ⟨?_, ?_⟩, ?_⟩
    · rw [h2, List.drop_drop, show 4 + (beDec (src.take 4) - 4) = beDec (src.take 4) by omega,
        List.take_append_drop]
    · simp only [List.length_take]; omega
    · rw [List.take_take, Nat.min_eq_left (by omega), List.length_take]; omega
    · rw [List.drop_take]; exact h5

theorem codecDecode_end {env : Env} {dec : Dec T} {src : Bytes} {st' : DecodeState} {src' : Bytes}
    {ans : Answer CodecError T} (hlen : src.length < 2 ^ 63)
    (h : codecDecode env dec .frameHeader src = ⟨st', src', ans⟩) :
    match ans with
    | .none => if src'.isEmpty then Verdict env dec src .done else Verdict env dec src .bytesRemaining
    | .err e => Verdict env dec src (.failed e)
    | .panic p => Verdict env dec src (.panicked p)
    | .some _ => True := by
  by_cases h8 : src.length < 8
  · rw [codecDecode_wait h8] at h
    simp only [Call.mk.injEq] at h
    obtain ⟨-, rfl, rfl⟩ := h
    simp only
    split
    · rename_i hs; exact List.isEmpty_iff.1 hs
    · rename_i hs; exact .inl ⟨by simpa using hs, .inl h8⟩
  by_cases h4 : beDec (src.take 4) < 4
  · cases he : env.overflowChecks with
    | true =>
      rw [codecDecode_abort (by omega) h4 he] at h
      simp only [Call.mk.injEq] at h
      obtain ⟨-, rfl, rfl⟩ := h
      exact ⟨by omega, .inl ⟨h4, he, rfl⟩⟩
    | false =>
      rw [codecDecode_wrap (by omega) h4 he, frameStep_short (by simp only [List.length_drop]; omega)] at h
      simp only [Call.mk.injEq] at h
      obtain ⟨-, rfl, rfl⟩ := h
      simp only
      rw [if_neg (by simp only [List.isEmpty_iff, List.drop_eq_nil_iff]; omega)]
      exact .inr ⟨by omega, h4, he⟩
  · rw [codecDecode_header (by omega) (by omega)] at h
    by_cases hs : src.length < beDec (src.take 4)
    · rw [frameStep_short (by simp only [List.length_drop]; omega)] at h
      simp only [Call.mk.injEq] at h
      obtain ⟨-, rfl, rfl⟩ := h
      simp only
      rw [if_neg (by simp only [List.isEmpty_iff, List.drop_eq_nil_iff]; omega)]
      exact .inl ⟨fun h => by simp [h] at h8, .inr hs⟩
    · unfold frameStep at h
      rw [if_neg (by simp only [List.length_drop]; omega)] at h
      simp only at h
      rw [← List.drop_take] at h
      cases hd : dec ((src.take (beDec (src.take 4))).drop 4) with
      | ok q =>
        obtain ⟨r, a⟩ := q
        simp only [hd] at h
        split at h
        · rename_i hr
          simp only [Call.mk.injEq] at h
          obtain ⟨-, rfl, rfl⟩ := h
          refine ⟨by omega, by omega, by omega, ?_⟩
          rw [hd]
          exact ⟨by simpa using hr, rfl⟩
        · simp only [Call.mk.injEq] at h
          obtain ⟨-, rfl, rfl⟩ := h
          trivial
      | err p =>
        simp only [hd] at h
        simp only [Call.mk.injEq] at h
        obtain ⟨-, rfl, rfl⟩ := h
        refine ⟨by omega, by omega, by omega, ?_⟩
        rw [hd]
      | panic p =>
        simp only [hd] at h
        simp only [Call.mk.injEq] at h
        obtain ⟨-, rfl, rfl⟩ := h
        exact ⟨by omega, .inr ⟨by omega, by omega, hd⟩⟩

theorem WholeFrames.nil (dec : Dec T) : WholeFrames dec [] [] := ⟨[], rfl, rfl, by simp⟩

theorem WholeFrames.cons {dec : Dec T} {w bytes : Bytes} {a : T} {items : List T} (hw : IsFrame w)
    (hd : dec (w.drop 4) = .ok ([], a)) (h : WholeFrames dec bytes items) :
    WholeFrames dec (w ++ bytes) (a :: items) := by
  obtain ⟨ws, rfl, rfl, h⟩ := h
  refine ⟨(w, a) :: ws, by simp, by simp, ?_⟩
  intro x hx
  rcases List.mem_cons.1 hx with rfl | hx
  · exact ⟨hw, hd⟩
  · exact h x hx

theorem frameCodec_iff {env : Env} {dec : Dec T} {st st' : DecodeState} {src src' : Bytes}
    {ans : Answer CodecError T} : frameCodec env dec st src = (st', src', ans) ↔
      codecDecode env dec st src = ⟨st', src', ans⟩ := by
  unfold frameCodec
  cases codecDecode env dec st src
  simp

theorem frame_drains {env : Env} {dec : Dec T} (hdec : Needs4 dec) {src : Bytes} {items : List T}
    {e : Ending CodecError} (hlen : src.length < 2 ^ 63)
    (h : Drains (frameCodec env dec) .frameHeader src items e) :
    ∃ front part, src = front ++ part ∧ WholeFrames dec front items ∧ Verdict env dec part e := by
  generalize hst : DecodeState.frameHeader = st at h
  induction h with
  | item h1 h2 ih =>
    subst hst
    obtain ⟨rfl, w, rfl, hw, hd⟩ := codecDecode_item (env := env) hdec hlen (frameCodec_iff.1 h1)
    obtain ⟨front, part, rfl, k1, k2⟩ := ih (by simp only [List.length_append] at hlen; omega) rfl
    exact ⟨w ++ front, part, by simp, k1.cons hw hd, k2⟩
  | done h1 =>
    subst hst
    exact ⟨[], _, rfl, .nil dec, codecDecode_end hlen (frameCodec_iff.1 h1)⟩
  | left h1 h2 =>
    subst hst
    have := codecDecode_end hlen (frameCodec_iff.1 h1)
    simp only at this
    rw [if_neg (by simpa using h2)] at this
    exact ⟨[], _, rfl, .nil dec, this⟩
  | failed h1 =>
    subst hst
    exact ⟨[], _, rfl, .nil dec, codecDecode_end hlen (frameCodec_iff.1 h1)⟩
  | panicked h1 =>
    subst hst
    exact ⟨[], _, rfl, .nil dec, codecDecode_end hlen (frameCodec_iff.1 h1)⟩

theorem verdict_drains {env : Env} {dec : Dec T} {part : Bytes} {e : Ending CodecError}
    (hlen : part.length < 2 ^ 63) (h : Verdict env dec part e) :
    Drains (frameCodec env dec) .frameHeader part [] e := by
  cases e with
  | done => subst h; exact .done (st' := .frameHeader) rfl
  | bytesRemaining =>
    rcases h with ⟨h0, h | h⟩ | ⟨h8, h4, he⟩
    · exact .left (frameCodec_iff.2 (codecDecode_wait h)) h0
    · by_cases h8 : part.length < 8
      · exact .left (frameCodec_iff.2 (codecDecode_wait h8)) h0
      · refine .left (frameCodec_iff.2 ((codecDecode_header (by omega) (by omega)).trans
          (frameStep_short (by simp only [List.length_drop]; omega)))) ?_
        simp only [ne_eq, List.drop_eq_nil_iff]; omega
    · refine .left (frameCodec_iff.2 ((codecDecode_wrap h8 h4 he).trans
          (frameStep_short (by simp only [List.length_drop]; omega)))) ?_
      simp only [ne_eq, List.drop_eq_nil_iff]; omega
  | failed e =>
    obtain ⟨h8, h4, hl, h⟩ := h
    rw [List.drop_take] at h
    refine .failed (st' := .frame (beDec (part.take 4) - 4))
      (src' := (part.drop 4).drop (beDec (part.take 4) - 4)) (frameCodec_iff.2 ?_)
    rw [codecDecode_header h8 h4]
    unfold frameStep
    rw [if_neg (by simp only [List.length_drop]; omega)]
    simp only
    split at h <;> rename_i hd
    · obtain ⟨hr, rfl⟩ := h
      rw [hd]
      simp only
      rw [if_pos (by simpa using hr)]
    · rw [hd, h]
    · exact h.elim
  | panicked p =>
    obtain ⟨h8, ⟨h4, he, rfl⟩ | ⟨h4, hl, h⟩⟩ := h
    · exact .panicked (frameCodec_iff.2 (codecDecode_abort h8 h4 he))
    · rw [List.drop_take] at h
      refine .panicked (st' := .frame (beDec (part.take 4) - 4))
        (src' := (part.drop 4).drop (beDec (part.take 4) - 4)) (frameCodec_iff.2 ?_)
      rw [codecDecode_header h8 h4]
      unfold frameStep
      rw [if_neg (by simp only [List.length_drop]; omega)]
      simp only [h]

theorem whole_drains {env : Env} {dec : Dec T} {part : Bytes} {items' : List T}
    {e : Ending CodecError} (h' : Drains (frameCodec env dec) .frameHeader part items' e) :
    ∀ ws : List (Bytes × T), (∀ w ∈ ws, IsFrame w.1 ∧ dec (w.1.drop 4) = .ok ([], w.2)) →
    Drains (frameCodec env dec) .frameHeader ((ws.map (·.1)).flatten ++ part)
      (ws.map (·.2) ++ items') e
  | [], _ => h'
  | w :: ws, h => by
    obtain ⟨hw, hd⟩ := h w (by simp)
    have k := frame_wire (env := env) (dec := dec) (rest := (ws.map (·.1)).flatten ++ part) hw
    rw [hd] at k
    simp only [List.isEmpty_nil, if_true] at k
    have ih := whole_drains h' ws fun x hx => h x (by simp [hx])
    have := Drains.item (frameCodec_iff.2 k) ih
    simpa using this

theorem frame_drains_iff {env : Env} {dec : Dec T} (hdec : Needs4 dec) {src : Bytes}
    {items : List T} {e : Ending CodecError} (hlen : src.length < 2 ^ 63) :
    Drains (frameCodec env dec) .frameHeader src items e ↔
    ∃ front part, src = front ++ part ∧ WholeFrames dec front items ∧ Verdict env dec part e := by
  refine ⟨frame_drains hdec hlen, ?_⟩
  rintro ⟨front, part, rfl, ⟨ws, rfl, rfl, h⟩, hv⟩
  simpa using whole_drains (verdict_drains (by simp only [List.length_append] at hlen; omega) hv) ws h

theorem amqp_needs4 (env : Env) : Needs4 (AmqpFrame.decode env) := by
  intro b r a h
  by_cases hb : b.length < 4
  · rw [(C25_reject env 0 0 0 0 [] b hb).1] at h; cases h
  · omega

theorem sasl_needs4 (env : Env) : Needs4 (SaslFrame.decode env) := by
  intro b r a h
  by_cases hb : b.length < 4
  · rw [(C25_reject env 0 0 0 0 [] b hb).2.1] at h; cases h
  · omega

/-- Frames that were sent, cut anywhere. -/
theorem cut_drains {env : Env} {dec : Dec T} (enc : T → Bytes) : ∀ (frames : List T) (d missing : Bytes),
    (∀ f ∈ frames, IsFrame (enc f) ∧ dec ((enc f).drop 4) = .ok ([], f)) →
    frames.flatMap enc = d ++ missing →
    ∃ got lost, frames = got ++ lost ∧
      ((d = got.flatMap enc ∧ Drains (frameCodec env dec) .frameHeader d got .done) ∨
        ∃ f t part, lost = f :: t ∧ part ≠ [] ∧ part.length < (enc f).length ∧
          d = got.flatMap enc ++ part ∧
          Drains (frameCodec env dec) .frameHeader d got .bytesRemaining)
  | [], d, missing, _, h => by
    have hd : d = [] := by simp at h; exact h.1
    subst hd
    exact ⟨[], [], rfl, .inl ⟨rfl, verdict_drains (by simp) rfl⟩⟩
  | f :: fs, d, missing, hf, h => by
    obtain ⟨hw, hd⟩ := hf f (by simp)
    rw [List.flatMap_cons] at h
    by_cases hl : (enc f).length ≤ d.length
    · have e1 : d.take (enc f).length = enc f := by
        have := congrArg (List.take (enc f).length) h
        rw [List.take_left, List.take_append_of_le_length hl] at this
        exact this.symm
      have e2 : d = enc f ++ d.drop (enc f).length := by
        conv => lhs; rw [← List.take_append_drop (enc f).length d, e1]
      revert e2
      generalize d.drop (enc f).length = d'
      rintro rfl
      rw [List.append_assoc] at h
      obtain ⟨got, lost, k1, k2⟩ := cut_drains (env := env) (dec := dec) enc fs d' missing (fun g hg => hf g (by simp [hg]))
        (List.append_cancel_left h)
      have step : ∀ e, Drains (frameCodec env dec) .frameHeader d' got e →
          Drains (frameCodec env dec) .frameHeader (enc f ++ d') (f :: got) e := fun e hD => by
        simpa using whole_drains hD [(enc f, f)] (by simpa using ⟨hw, hd⟩)
      refine ⟨f :: got, lost, by rw [k1]; rfl, ?_⟩
      rcases k2 with ⟨rfl, k2⟩ | ⟨g, t, part, rfl, k2, k3, rfl, k4⟩
      · exact .inl ⟨rfl, step _ k2⟩
      · exact .inr ⟨g, t, part, rfl, k2, k3, by simp, step _ k4⟩
    · by_cases h0 : d = []
      · subst h0
        exact ⟨[], f :: fs, rfl, .inl ⟨rfl, verdict_drains (by simp) rfl⟩⟩
      · have hlt := beDec_lt ((enc f).take 4)
        have hp : 256 ^ ((enc f).take 4).length ≤ 256 ^ 4 :=
          Nat.pow_le_pow_right (by decide) (by rw [List.length_take]; omega)
        refine ⟨[], f :: fs, rfl, .inr ⟨f, fs, d, rfl, h0, by omega, rfl,
          verdict_drains (by rw [hw.2] at hlt; omega) (.inl ⟨h0, ?_⟩)⟩⟩
        by_cases h8 : d.length < 8
        · exact .inl h8
        · refine .inr ?_
          have : d.take 4 = (enc f).take 4 := by
            have := congrArg (List.take 4) h
            rw [List.take_append_of_le_length (by have := hw.1; omega),
              List.take_append_of_le_length (by omega)] at this
            exact this.symm
          rw [this, hw.2]
          omega

end

/-! ## The codec of protocol headers -/

theorem headerCodec_stream : StreamCodec headerCodec (fun _ src => src.length) where
  more st src more h := by
    unfold headerCodec at h ⊢
    rw [protocolIdDecode_more h]
  resume st src more h := by
    unfold headerCodec at h ⊢
    rw [protocolIdDecode_none h]
  shrink st src a h := by
    obtain ⟨rest, rfl⟩ := (C33_accepts src a).1 h
    have : headerCodec st (a.header ++ rest) = ((), rest, .some a) := by cases a <;> rfl
    rw [this]
    cases a <;> simp only [ProtocolId.header, List.cons_append, List.length_cons, List.nil_append] <;> omega

theorem eight {src : Bytes} (h : 8 ≤ src.length) :
    ∃ m0 m1 m2 m3 id v0 v1 v2 rest, src = m0 :: m1 :: m2 :: m3 :: id :: v0 :: v1 :: v2 :: rest := by
  match src, h with
  | m0 :: m1 :: m2 :: m3 :: id :: v0 :: v1 :: v2 :: rest, _ =>
    exact ⟨m0, m1, m2, m3, id, v0, v1, v2, rest, rfl⟩

theorem header_verdict (src : Bytes) :
    (∃ a rest, src = a.header ++ rest ∧ headerCodec () src = ((), rest, .some a)) ∨
    ∃ e, HeaderVerdict src e ∧ Drains headerCodec () src [] e := by
  by_cases h8 : src.length < 8
  · right
    by_cases h0 : src = []
    · subst h0
      exact ⟨.done, rfl, .done (st' := ()) rfl⟩
    · refine ⟨.bytesRemaining, ⟨h0, h8⟩, .left (st' := ()) (src' := src) ?_ h0⟩
      unfold headerCodec
      rw [C33_wait src h8]
  · obtain ⟨m0, m1, m2, m3, id, v0, v1, v2, rest, rfl⟩ := eight (Nat.le_of_not_lt h8)
    obtain ⟨answer, k0, k1, k2, k3⟩ := C33_decode m0 m1 m2 m3 id v0 v1 v2 rest
    have k : headerCodec () (m0 :: m1 :: m2 :: m3 :: id :: v0 :: v1 :: v2 :: rest) = ((), rest, answer) := by
      unfold headerCodec
      rw [k0]
    have l8 : 8 ≤ (m0 :: m1 :: m2 :: m3 :: id :: v0 :: v1 :: v2 :: rest).length := by simp
    by_cases hm : (m0, m1, m2, m3) = (0x41, 0x4d, 0x51, 0x50)
    · by_cases hv : (v0, v1, v2) = (1, 0, 0)
      · obtain ⟨a0, a2, a3, a4⟩ := k3 hm hv
        simp only [Prod.mk.injEq] at hm hv
        obtain ⟨rfl, rfl, rfl, rfl⟩ := hm
        obtain ⟨rfl, rfl, rfl⟩ := hv
        by_cases i0 : id = 0
        · subst i0
          exact .inl ⟨.Amqp, rest, rfl, by rw [k, a0 rfl]⟩
        by_cases i2 : id = 2
        · subst i2
          exact .inl ⟨.AmqpTls, rest, rfl, by rw [k, a2 rfl]⟩
        by_cases i3 : id = 3
        · subst i3
          exact .inl ⟨.AmqpSasl, rest, rfl, by rw [k, a3 rfl]⟩
        refine .inr ⟨.failed .Unknown, ⟨l8, rfl, rfl, by simp [i0, i2, i3]⟩, .failed (st' := ()) (src' := rest) ?_⟩
        rw [k, a4 i0 i2 i3]
      · refine .inr ⟨.failed .Incompatible, ⟨l8, ?_, ?_⟩, .failed (st' := ()) (src' := rest) ?_⟩
        · simpa using hm
        · simpa using hv
        · rw [k, k2 hm hv]
    · refine .inr ⟨.failed .InvalidHeader, ⟨l8, ?_⟩, .failed (st' := ()) (src' := rest) ?_⟩
      · simpa using hm
      · rw [k, k1 hm]

/-- At most one verdict, and none on a header. -/
theorem HeaderVerdict.det {src : Bytes} {e e' : Ending ProtocolIdError} (h : HeaderVerdict src e)
    (h' : HeaderVerdict src e') : e = e' := by
  rcases e with _ | _ | e | _ <;> rcases e' with _ | _ | e' | _ <;> try cases e
  all_goals try cases e'
  all_goals try rfl
  all_goals first
    | exact False.elim h
    | exact False.elim h'
    | (simp only [HeaderVerdict] at h h'; simp_all; done)
    | (simp only [HeaderVerdict] at h h'; have := h.2; have := h'.1; omega)
    | (simp only [HeaderVerdict] at h h'; have := h'.2; have := h.1; omega)

theorem HeaderVerdict.not_header {a : ProtocolId} {rest : Bytes} {e : Ending ProtocolIdError} :
    ¬ HeaderVerdict (a.header ++ rest) e := by
  intro h
  rcases e with _ | _ | e | _ <;> try cases e
  all_goals cases a <;> simp [HeaderVerdict, ProtocolId.header] at h <;> omega

theorem header_drains_iff {src : Bytes} {items : List ProtocolId} {e : Ending ProtocolIdError} :
    Drains headerCodec () src items e ↔
    ∃ part, src = (items.map ProtocolId.header).flatten ++ part ∧ HeaderVerdict part e := by
  induction items generalizing src with
  | nil =>
    simp only [List.map_nil, List.flatten_nil, List.nil_append, exists_eq_left']
    rcases header_verdict src with ⟨a, rest, rfl, h1⟩ | ⟨e', h1, h2⟩
    · constructor
      · intro h
        have : ∃ i e', Drains headerCodec () rest i e' := Drains.total headerCodec_stream _ _
        obtain ⟨i, e', k⟩ := this
        have := (h.det (.item h1 k)).1
        simp at this
      · intro h; exact absurd h HeaderVerdict.not_header
    · constructor
      · intro h; rw [(h.det h2).2]; exact h1
      · intro h; rw [h.det h1]; exact h2
  | cons b items ih =>
    constructor
    · intro h
      cases h with
      | item h1 h2 =>
        obtain ⟨part, rfl, h3⟩ := ih.1 h2
        rcases header_verdict src with ⟨a, rest, rfl, h4⟩ | ⟨e', k1, k2⟩
        · rw [h4] at h1
          simp only [Prod.mk.injEq, Answer.some.injEq, true_and] at h1
          obtain ⟨rfl, rfl⟩ := h1
          exact ⟨part, by simp, h3⟩
        · have := (k2.det (.item h1 h2)).1
          simp at this
    · rintro ⟨part, rfl, h⟩
      have := ih.2 ⟨part, rfl, h⟩
      refine .item (st' := ()) (src' := (items.map ProtocolId.header).flatten ++ part) ?_ this
      rw [List.map_cons, List.flatten_cons, List.append_assoc]
      cases b <;> rfl

end Amqp
